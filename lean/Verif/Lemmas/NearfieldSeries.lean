import Verif.Model.Nearfield
import Verif.Lemmas.Reflections
import Mathlib.Data.Nat.Choose.Basic
import Mathlib.Tactic.FieldSimp
import Mathlib.Tactic.LinearCombination

/-!
# The recurrences of `functions_nearfield.py` are symmetric systems
-/

set_option autoImplicit false

namespace SD.Nearfield

open Finset SD.Reflect

theorem sum_fin1 (g : ℕ → ℝ) {q : ℤ} {N : ℕ} (hq : q ≤ N) (hz : ∀ s : ℕ, q < s → g s = 0) :
    ∑ s : Fin q.toNat, g (s + 1) = ∑ s ∈ Icc 1 N, g s := by
  rw [Fin.sum_univ_eq_sum_range (fun s => g (s + 1)), range_eq_Ico, sum_Ico_add' g 0 q.toNat 1]
  apply sum_subset
  · intro s hs
    rw [mem_Ico] at hs
    rw [mem_Icc]
    omega
  · intro s hs hs'
    rw [mem_Icc] at hs
    rw [mem_Ico] at hs'
    exact hz s (by omega)

theorem sum_fin2 (g : ℕ → ℝ) {q : ℤ} {N : ℕ} (hq : q ≤ N) (hz : ∀ s : ℕ, q < s → g s = 0) :
    ∑ s : Fin (q - 1).toNat, g (s + 2) = ∑ s ∈ Icc 2 N, g s := by
  rw [Fin.sum_univ_eq_sum_range (fun s => g (s + 2)), range_eq_Ico, sum_Ico_add' g 0 (q - 1).toNat 2]
  apply sum_subset
  · intro s hs
    rw [mem_Ico] at hs
    rw [mem_Icc]
    omega
  · intro s hs hs'
    rw [mem_Icc] at hs
    rw [mem_Ico] at hs'
    exact hz s (by omega)

theorem sum_empty' (g : Fin 0 → ℝ) : ∑ s, g s = 0 := by simp

/-! ## `Px` -/

theorem Px_q (c n : ℕ) (p : ℤ) {q : ℤ} (hq : q < 0) : Px c n p q = 0 := by
  have h : q.toNat = 0 := by omega
  rw [Px.eq_1, if_neg (by omega), h]
  split_ifs <;> simp

theorem Vx_q (c n : ℕ) (p : ℤ) {q : ℤ} (hq : q < 0) : Vx c n p q = 0 := by
  have h : q.toNat = 0 := by omega
  rw [Vx.eq_1, if_neg (by omega), h, Px_q c n p hq]
  simp

theorem Px_neg (c n : ℕ) (p q : ℤ) (h : p < 0 ∨ q < 0) : Px c n p q = 0 := by
  rcases lt_or_ge q 0 with hq | hq
  · exact Px_q c n p hq
  · have hp : p < 0 := by omega
    rw [Px.eq_1, if_neg (by omega)]
    split_ifs with hn
    · rfl
    · refine sum_eq_zero fun s _ => ?_
      rw [Px_q _ _ _ (by omega), Px_q _ _ _ (by omega), Vx_q _ _ _ (by omega)]
      ring

theorem Vx_neg (c n : ℕ) (p q : ℤ) (h : p < 0 ∨ q < 0) : Vx c n p q = 0 := by
  rcases lt_or_ge q 0 with hq | hq
  · exact Vx_q c n p hq
  · have hp : p < 0 := by omega
    rw [Vx.eq_1, if_neg (by omega), Px_neg c n p q h, sum_eq_zero]
    · ring
    · intro s _
      rw [Px_q _ _ _ (by omega), mul_zero]

/-- `V - P`. -/
noncomputable def Wx (c n : ℕ) (p q : ℤ) : ℝ := Vx c n p q - Px c n p q

theorem Px_family (c : ℕ) : Family 1 (Px c) (fun _ _ _ => 0) (Wx c)
    (fun n s => binom (n + s) n * (n * (2 * n + 1) * (2 * n * s - n - s + 2)
      / (2 * (n + 1) * (2 * s - 1) * (n + s))))
    (fun n s => -(binom (n + s) n * (n * (2 * n - 1) / (2 * (n + 1)))))
    (fun n s => -(binom (n + s) n * (n * (4 * n ^ 2 - 1) / (2 * (n + 1) * (2 * s + 1)))))
    (fun _ _ => 0) (fun _ _ => 0) (fun _ _ => 0)
    (fun n s => -(2 * n / ((n + 1) * (2 * n + 3)) * binom (n + s) n)) (kron c) (fun _ => 0) := by
  refine ⟨fun n => Px_neg c n, fun _ _ _ _ => rfl, ?_, ?_, ?_, ?_⟩
  · intro n p q h
    rw [Wx, Px_neg c n p q h, Vx_neg c n p q h, sub_zero]
  · intro N n p q hn hq
    by_cases h : p = 0 ∧ q = 0
    · rw [Px.eq_1, if_pos h, if_pos h, sum_eq_zero, add_zero]
      intro s hs
      rw [mem_Icc] at hs
      rw [Px_neg _ _ _ _ (by omega), Px_neg _ _ _ _ (by omega), Px_neg _ _ _ _ (by omega), Wx,
        Px_neg _ _ _ _ (by omega), Vx_neg _ _ _ _ (by omega)]
      ring
    · rw [Px.eq_1, if_neg h, if_neg h, dif_neg (by omega), zero_add, ← sum_fin1 _ hq]
      · refine sum_congr rfl fun s _ => ?_
        rw [Wx]
        push_cast
        ring
      · intro s hs
        rw [Px_neg _ _ _ _ (by omega), Px_neg _ _ _ _ (by omega), Px_neg _ _ _ _ (by omega), Wx,
          Px_neg _ _ _ _ (by omega), Vx_neg _ _ _ _ (by omega)]
        ring
  · intro N n p q hn hq
    simp
  · intro N n p q hn hq
    by_cases h : p = 0 ∧ q = 0
    · rw [Wx, Px.eq_1, Vx.eq_1, if_pos h, if_pos h, sub_self, sum_eq_zero]
      intro s hs
      rw [mem_Icc] at hs
      rw [Px_neg _ _ _ _ (by omega)]
      ring
    · rw [Wx, Vx.eq_1, if_neg h, ← sum_fin1 _ hq]
      · rw [sub_right_comm, sub_self, zero_sub, mul_sum, ← sum_neg_distrib]
        refine sum_congr rfl fun s _ => ?_
        push_cast
        ring
      · intro s hs
        rw [Px_neg _ _ _ _ (by omega)]
        ring

theorem binom_comm (n s : ℕ) : binom (n + s) n = binom (s + n) s := by
  unfold binom
  rw [Nat.choose_symm_add, Nat.add_comm]

theorem Px_weights : Weights 1
    (fun n s => binom (n + s) n * (n * (2 * n + 1) * (2 * n * s - n - s + 2)
      / (2 * (n + 1) * (2 * s - 1) * (n + s))))
    (fun n s => -(binom (n + s) n * (n * (2 * n - 1) / (2 * (n + 1)))))
    (fun n s => -(binom (n + s) n * (n * (4 * n ^ 2 - 1) / (2 * (n + 1) * (2 * s + 1)))))
    (fun _ _ => 0) (fun _ _ => 0) (fun _ _ => 0)
    (fun n s => -(2 * n / ((n + 1) * (2 * n + 3)) * binom (n + s) n))
    (fun n => (n + 1) / (n * (4 * n ^ 2 - 1))) (fun _ => 0)
    (fun n => (n + 1) * (2 * n + 3) / (4 * n * (2 * n + 1))) := by
  have hcast : ∀ n : ℕ, 1 ≤ n → ∃ m : ℝ, 0 ≤ m ∧ (n : ℝ) = m + 1 := by
    intro n hn
    exact ⟨n - 1, by have : (1 : ℝ) ≤ n := by exact_mod_cast hn
                     linarith, by ring⟩
  refine ⟨?_, ?_, ?_, fun _ _ _ _ => by simp, fun _ _ _ _ => by simp⟩
  all_goals
    intro n s hn hs
    beta_reduce
    rw [binom_comm n s]
    obtain ⟨a, ha, ea⟩ := hcast n hn
    obtain ⟨b, hb, eb⟩ := hcast s hs
    rw [ea, eb]
    have f1 : (4 : ℝ) * (a + 1) ^ 2 - 1 = (2 * a + 1) * (2 * a + 3) := by ring
    have f2 : (4 : ℝ) * (b + 1) ^ 2 - 1 = (2 * b + 1) * (2 * b + 3) := by ring
    have f3 : (2 : ℝ) * (a + 1) - 1 = 2 * a + 1 := by ring
    have f4 : (2 : ℝ) * (b + 1) - 1 = 2 * b + 1 := by ring
    have f5 : a + 1 + (b + 1) = a + b + 2 := by ring
    have f6 : b + 1 + (a + 1) = a + b + 2 := by ring
    rw [f1]
    try rw [f2]
    try rw [f3]
    try rw [f4]
    try rw [f5]
    try rw [f6]
    field_simp
    try ring

theorem binom_y (n s : ℕ) : binom (n + s) (n + 1) = binom (n + s) n * s / (n + 1) := by
  unfold binom
  have h := Nat.choose_succ_right_eq (n + s) n
  rw [Nat.add_sub_cancel_left] at h
  have h' : ((n + s).choose (n + 1) : ℝ) * (n + 1) = (n + s).choose n * s := by exact_mod_cast h
  rw [eq_div_iff (by positivity), h']

theorem binom_z (n s : ℕ) :
    binom (n + s) (n + 2) = binom (n + s) n * (s * (s - 1)) / ((n + 1) * (n + 2)) := by
  have h1 := binom_y n s
  rcases s with _ | s
  · simp [binom, Nat.choose_eq_zero_of_lt]
  · have h2 := binom_y (n + 1) s
    rw [show n + 1 + s = n + (s + 1) by omega] at h2
    rw [show n + 2 = n + 1 + 1 from rfl, h2, h1]
    push_cast
    field_simp
    ring

/-! ## `Py` -/

theorem Py_q (cp cq : ℕ → ℝ) (n : ℕ) (p : ℤ) {q : ℤ} (hq : q < 0) : Py cp cq n p q = 0 := by
  have h : q.toNat = 0 := by omega
  rw [Py.eq_1, if_neg (by omega), h]
  split_ifs <;> simp

theorem Qy_q (cp cq : ℕ → ℝ) (n : ℕ) (p : ℤ) {q : ℤ} (hq : q < 0) : Qy cp cq n p q = 0 := by
  have h : q.toNat = 0 := by omega
  rw [Qy.eq_1, if_neg (by omega), h]
  simp

theorem Vy_q (cp cq : ℕ → ℝ) (n : ℕ) (p : ℤ) {q : ℤ} (hq : q < 0) : Vy cp cq n p q = 0 := by
  have h : q.toNat = 0 := by omega
  rw [Vy.eq_1, if_neg (by omega), h, Py_q cp cq n p hq]
  simp

theorem Py_neg (cp cq : ℕ → ℝ) (n : ℕ) (p q : ℤ) (h : p < 0 ∨ q < 0) : Py cp cq n p q = 0 := by
  rcases lt_or_ge q 0 with hq | hq
  · exact Py_q cp cq n p hq
  · have hp : p < 0 := by omega
    rw [Py.eq_1, if_neg (by omega)]
    split_ifs with hn
    · rfl
    · refine sum_eq_zero fun s _ => ?_
      rw [Py_q _ _ _ _ (by omega), Py_q _ _ _ _ (by omega), Vy_q _ _ _ _ (by omega), Qy_q _ _ _ _ (by omega)]
      ring

theorem Qy_neg (cp cq : ℕ → ℝ) (n : ℕ) (p q : ℤ) (h : p < 0 ∨ q < 0) : Qy cp cq n p q = 0 := by
  rcases lt_or_ge q 0 with hq | hq
  · exact Qy_q cp cq n p hq
  · have hp : p < 0 := by omega
    rw [Qy.eq_1, if_neg (by omega)]
    refine sum_eq_zero fun s _ => ?_
    rw [Py_q _ _ _ _ (by omega), Qy_q _ _ _ _ (by omega)]
    ring

theorem Vy_neg (cp cq : ℕ → ℝ) (n : ℕ) (p q : ℤ) (h : p < 0 ∨ q < 0) : Vy cp cq n p q = 0 := by
  rcases lt_or_ge q 0 with hq | hq
  · exact Vy_q cp cq n p hq
  · have hp : p < 0 := by omega
    rw [Vy.eq_1, if_neg (by omega), Py_neg cp cq n p q h, sum_eq_zero]
    · ring
    · intro s _
      rw [Py_q _ _ _ _ (by omega), mul_zero]

/-- `V - P`. -/
noncomputable def Wy (cp cq : ℕ → ℝ) (n : ℕ) (p q : ℤ) : ℝ := Vy cp cq n p q - Py cp cq n p q

theorem Py_family (cp cq : ℕ → ℝ) : Family 1 (Py cp cq) (Qy cp cq) (Wy cp cq)
    (fun n s => binom (n + s) (n + 1) * ((2 * n + 1) / (2 * (n + 1))
      * (3 * (n + s) - (n * s + 1) * (2 * n * s - s - n + 2)) / (s * (n + s) * (2 * s - 1))))
    (fun n s => binom (n + s) (n + 1) * (n * (2 * n - 1) / (2 * (n + 1))))
    (fun n s => binom (n + s) (n + 1) * (n * (4 * n ^ 2 - 1) / (2 * (n + 1) * (2 * s + 1))))
    (fun n s => -(binom (n + s) (n + 1) * (2 * (4 * n ^ 2 - 1) / (3 * (n + 1)))))
    (fun n s => -(binom (n + s) (n + 1) * (3 / (2 * n * s * (n + 1)))))
    (fun n s => binom (n + s) (n + 1) * (s / (n + 1)))
    (fun n s => 2 * n / ((n + 1) * (2 * n + 3)) * binom (n + s) (n + 1)) cp cq := by
  refine ⟨Py_neg cp cq, Qy_neg cp cq, ?_, ?_, ?_, ?_⟩
  · intro n p q h
    rw [Wy, Py_neg cp cq n p q h, Vy_neg cp cq n p q h, sub_zero]
  · intro N n p q hn hq
    by_cases h : p = 0 ∧ q = 0
    · rw [Py.eq_1, if_pos h, if_pos h, sum_eq_zero, add_zero]
      · intro s hs
        rw [mem_Icc] at hs
        rw [Py_neg _ _ _ _ _ (by omega), Py_neg _ _ _ _ _ (by omega), Py_neg _ _ _ _ _ (by omega), Wy,
          Py_neg _ _ _ _ _ (by omega), Vy_neg _ _ _ _ _ (by omega), Qy_neg _ _ _ _ _ (by omega)]
        ring
    · rw [Py.eq_1, if_neg h, if_neg h, dif_neg (by omega), zero_add, ← sum_fin1 _ hq]
      · refine sum_congr rfl fun s _ => ?_
        rw [Wy]
        push_cast
        ring
      · intro s hs
        rw [Py_neg _ _ _ _ _ (by omega), Py_neg _ _ _ _ _ (by omega), Py_neg _ _ _ _ _ (by omega), Wy,
          Py_neg _ _ _ _ _ (by omega), Vy_neg _ _ _ _ _ (by omega), Qy_neg _ _ _ _ _ (by omega)]
        ring
  · intro N n p q hn hq
    by_cases h : p = 0 ∧ q = 0
    · rw [Qy.eq_1, if_pos h, if_pos h, sum_eq_zero, add_zero]
      · intro s hs
        rw [mem_Icc] at hs
        rw [Py_neg _ _ _ _ _ (by omega), Qy_neg _ _ _ _ _ (by omega)]
        ring
    · rw [Qy.eq_1, if_neg h, if_neg h, zero_add, ← sum_fin1 _ hq]
      · refine sum_congr rfl fun s _ => ?_
        push_cast
        ring
      · intro s hs
        rw [Py_neg _ _ _ _ _ (by omega), Qy_neg _ _ _ _ _ (by omega)]
        ring
  · intro N n p q hn hq
    by_cases h : p = 0 ∧ q = 0
    · rw [Wy, Py.eq_1, Vy.eq_1, if_pos h, if_pos h, sub_self, sum_eq_zero]
      intro s hs
      rw [mem_Icc] at hs
      rw [Py_neg _ _ _ _ _ (by omega)]
      ring
    · rw [Wy, Vy.eq_1, if_neg h, ← sum_fin1 _ hq]
      · rw [add_sub_cancel_left, mul_sum]
        refine sum_congr rfl fun s _ => ?_
        push_cast
        ring
      · intro s hs
        rw [Py_neg _ _ _ _ _ (by omega)]
        ring

theorem Py_weights : Weights 1
    (fun n s => binom (n + s) (n + 1) * ((2 * n + 1) / (2 * (n + 1))
      * (3 * (n + s) - (n * s + 1) * (2 * n * s - s - n + 2)) / (s * (n + s) * (2 * s - 1))))
    (fun n s => binom (n + s) (n + 1) * (n * (2 * n - 1) / (2 * (n + 1))))
    (fun n s => binom (n + s) (n + 1) * (n * (4 * n ^ 2 - 1) / (2 * (n + 1) * (2 * s + 1))))
    (fun n s => -(binom (n + s) (n + 1) * (2 * (4 * n ^ 2 - 1) / (3 * (n + 1)))))
    (fun n s => -(binom (n + s) (n + 1) * (3 / (2 * n * s * (n + 1)))))
    (fun n s => binom (n + s) (n + 1) * (s / (n + 1)))
    (fun n s => 2 * n / ((n + 1) * (2 * n + 3)) * binom (n + s) (n + 1))
    (fun n => (n + 1) ^ 2 / (4 * n ^ 2 - 1)) (fun n => 4 / 9 * n ^ 2 * (n + 1) ^ 2)
    (fun n => (n + 1) ^ 2 * (2 * n + 3) / (4 * (2 * n + 1))) := by
  have hcast : ∀ n : ℕ, 1 ≤ n → ∃ m : ℝ, 0 ≤ m ∧ (n : ℝ) = m + 1 := by
    intro n hn
    exact ⟨n - 1, by have : (1 : ℝ) ≤ n := by exact_mod_cast hn
                     linarith, by ring⟩
  constructor
  all_goals
    intro n s hn hs
    beta_reduce
    rw [binom_y n s, binom_y s n, binom_comm n s]
    obtain ⟨a, ha, ea⟩ := hcast n hn
    obtain ⟨b, hb, eb⟩ := hcast s hs
    rw [ea, eb]
    have f1 : (4 : ℝ) * (a + 1) ^ 2 - 1 = (2 * a + 1) * (2 * a + 3) := by ring
    have f2 : (4 : ℝ) * (b + 1) ^ 2 - 1 = (2 * b + 1) * (2 * b + 3) := by ring
    have f3 : (2 : ℝ) * (a + 1) - 1 = 2 * a + 1 := by ring
    have f4 : (2 : ℝ) * (b + 1) - 1 = 2 * b + 1 := by ring
    have f5 : a + 1 + (b + 1) = a + b + 2 := by ring
    have f6 : b + 1 + (a + 1) = a + b + 2 := by ring
    try rw [f1]
    try rw [f2]
    try rw [f3]
    try rw [f4]
    try rw [f5]
    try rw [f6]
    field_simp
    try ring

/-! ## `Pzm` -/

theorem Pzm_q (n : ℕ) (p : ℤ) {q : ℤ} (hq : q < 0) : Pzm n p q = 0 := by
  have h : (q - 1).toNat = 0 := by omega
  rw [Pzm.eq_1, if_neg (by omega), h]
  split_ifs <;> simp

theorem Qzm_q (n : ℕ) (p : ℤ) {q : ℤ} (hq : q < 0) : Qzm n p q = 0 := by
  have h : (q - 1).toNat = 0 := by omega
  rw [Qzm.eq_1, if_neg (by omega), h]
  simp

theorem Vzm_q (n : ℕ) (p : ℤ) {q : ℤ} (hq : q < 0) : Vzm n p q = 0 := by
  have h : (q - 1).toNat = 0 := by omega
  rw [Vzm.eq_1, if_neg (by omega), h, Pzm_q n p hq]
  simp

theorem Pzm_neg (n : ℕ) (p q : ℤ) (h : p < 0 ∨ q < 0) : Pzm n p q = 0 := by
  rcases lt_or_ge q 0 with hq | hq
  · exact Pzm_q n p hq
  · have hp : p < 0 := by omega
    rw [Pzm.eq_1, if_neg (by omega)]
    split_ifs with hn
    · rfl
    · refine sum_eq_zero fun s _ => ?_
      rw [Pzm_q _ _ (by omega), Pzm_q _ _ (by omega), Vzm_q _ _ (by omega), Qzm_q _ _ (by omega)]
      ring

theorem Qzm_neg (n : ℕ) (p q : ℤ) (h : p < 0 ∨ q < 0) : Qzm n p q = 0 := by
  rcases lt_or_ge q 0 with hq | hq
  · exact Qzm_q n p hq
  · have hp : p < 0 := by omega
    rw [Qzm.eq_1, if_neg (by omega)]
    refine sum_eq_zero fun s _ => ?_
    rw [Pzm_q _ _ (by omega), Qzm_q _ _ (by omega)]
    ring

theorem Vzm_neg (n : ℕ) (p q : ℤ) (h : p < 0 ∨ q < 0) : Vzm n p q = 0 := by
  rcases lt_or_ge q 0 with hq | hq
  · exact Vzm_q n p hq
  · have hp : p < 0 := by omega
    rw [Vzm.eq_1, if_neg (by omega), Pzm_neg n p q h, sum_eq_zero]
    · ring
    · intro s _
      rw [Pzm_q _ _ (by omega), mul_zero]

/-- `V - P`. -/
noncomputable def Wzm (n : ℕ) (p q : ℤ) : ℝ := Vzm n p q - Pzm n p q

theorem Pzm_family : Family 2 (Pzm) (Qzm) (Wzm)
    (fun n s => binom (n + s) (n + 2) * ((2 * n + 1) / (n + 1)
      * (n * s * (n + s - 2 * n * s - 2) - 4 * (2 * n * s - 4 * s - 4 * n + 2))
      / (2 * s * (n + s) * (2 * s - 1))))
    (fun n s => binom (n + s) (n + 2) * (n * (2 * n - 1) / (2 * (n + 1))))
    (fun n s => binom (n + s) (n + 2) * (n * (4 * n ^ 2 - 1) / (2 * (n + 1) * (2 * s + 1))))
    (fun n s => -(binom (n + s) (n + 2) * (2 * (4 * n ^ 2 - 1) / (n + 1))))
    (fun n s => -(binom (n + s) (n + 2) * (2 / (n * s * (n + 1)))))
    (fun n s => binom (n + s) (n + 2) * (s / (n + 1)))
    (fun n s => 2 * n / ((n + 1) * (2 * n + 3)) * binom (n + s) (n + 2)) (kron 2) (fun _ => 0) := by
  refine ⟨Pzm_neg , Qzm_neg , ?_, ?_, ?_, ?_⟩
  · intro n p q h
    rw [Wzm, Pzm_neg n p q h, Vzm_neg n p q h, sub_zero]
  · intro N n p q hn hq
    by_cases h : p = 0 ∧ q = 0
    · rw [Pzm.eq_1, if_pos h, if_pos h, sum_eq_zero, add_zero]
      · intro s hs
        rw [mem_Icc] at hs
        rw [Pzm_neg _ _ _ (by omega), Pzm_neg _ _ _ (by omega), Pzm_neg _ _ _ (by omega), Wzm,
          Pzm_neg _ _ _ (by omega), Vzm_neg _ _ _ (by omega), Qzm_neg _ _ _ (by omega)]
        ring
    · rw [Pzm.eq_1, if_neg h, if_neg h, dif_neg (by omega), zero_add, ← sum_fin2 _ hq]
      · refine sum_congr rfl fun s _ => ?_
        rw [Wzm]
        push_cast
        ring
      · intro s hs
        rw [Pzm_neg _ _ _ (by omega), Pzm_neg _ _ _ (by omega), Pzm_neg _ _ _ (by omega), Wzm,
          Pzm_neg _ _ _ (by omega), Vzm_neg _ _ _ (by omega), Qzm_neg _ _ _ (by omega)]
        ring
  · intro N n p q hn hq
    by_cases h : p = 0 ∧ q = 0
    · rw [Qzm.eq_1, if_pos h, if_pos h, sum_eq_zero, add_zero]
      · intro s hs
        rw [mem_Icc] at hs
        rw [Pzm_neg _ _ _ (by omega), Qzm_neg _ _ _ (by omega)]
        ring
    · rw [Qzm.eq_1, if_neg h, if_neg h, zero_add, ← sum_fin2 _ hq]
      · refine sum_congr rfl fun s _ => ?_
        push_cast
        ring
      · intro s hs
        rw [Pzm_neg _ _ _ (by omega), Qzm_neg _ _ _ (by omega)]
        ring
  · intro N n p q hn hq
    by_cases h : p = 0 ∧ q = 0
    · rw [Wzm, Pzm.eq_1, Vzm.eq_1, if_pos h, if_pos h, sub_self, sum_eq_zero]
      intro s hs
      rw [mem_Icc] at hs
      rw [Pzm_neg _ _ _ (by omega)]
      ring
    · rw [Wzm, Vzm.eq_1, if_neg h, ← sum_fin2 _ hq]
      · rw [add_sub_cancel_left, mul_sum]
        refine sum_congr rfl fun s _ => ?_
        push_cast
        ring
      · intro s hs
        rw [Pzm_neg _ _ _ (by omega)]
        ring

theorem Pzm_weights : Weights 2
    (fun n s => binom (n + s) (n + 2) * ((2 * n + 1) / (n + 1)
      * (n * s * (n + s - 2 * n * s - 2) - 4 * (2 * n * s - 4 * s - 4 * n + 2))
      / (2 * s * (n + s) * (2 * s - 1))))
    (fun n s => binom (n + s) (n + 2) * (n * (2 * n - 1) / (2 * (n + 1))))
    (fun n s => binom (n + s) (n + 2) * (n * (4 * n ^ 2 - 1) / (2 * (n + 1) * (2 * s + 1))))
    (fun n s => -(binom (n + s) (n + 2) * (2 * (4 * n ^ 2 - 1) / (n + 1))))
    (fun n s => -(binom (n + s) (n + 2) * (2 / (n * s * (n + 1)))))
    (fun n s => binom (n + s) (n + 2) * (s / (n + 1)))
    (fun n s => 2 * n / ((n + 1) * (2 * n + 3)) * binom (n + s) (n + 2))
    (fun n => (n + 1) ^ 2 * (n + 2) * (n - 1) / (4 * n ^ 2 - 1))
    (fun n => n ^ 2 * (n - 1) * (n + 1) ^ 2 * (n + 2))
    (fun n => (n - 1) * (n + 1) ^ 2 * (n + 2) * (2 * n + 3) / (4 * (2 * n + 1))) := by
  have hcast : ∀ n : ℕ, 2 ≤ n → ∃ m : ℝ, 0 ≤ m ∧ (n : ℝ) = m + 2 := by
    intro n hn
    exact ⟨n - 2, by have : (2 : ℝ) ≤ n := by exact_mod_cast hn
                     linarith, by ring⟩
  constructor
  all_goals
    intro n s hn hs
    beta_reduce
    rw [binom_z n s, binom_z s n, binom_comm n s]
    obtain ⟨a, ha, ea⟩ := hcast n hn
    obtain ⟨b, hb, eb⟩ := hcast s hs
    rw [ea, eb]
    have f1 : (4 : ℝ) * (a + 2) ^ 2 - 1 = (2 * a + 3) * (2 * a + 5) := by ring
    have f2 : (4 : ℝ) * (b + 2) ^ 2 - 1 = (2 * b + 3) * (2 * b + 5) := by ring
    have f3 : (2 : ℝ) * (a + 2) - 1 = 2 * a + 3 := by ring
    have f4 : (2 : ℝ) * (b + 2) - 1 = 2 * b + 3 := by ring
    have f5 : a + 2 + (b + 2) = a + b + 4 := by ring
    have f6 : b + 2 + (a + 2) = a + b + 4 := by ring
    try rw [f1]
    try rw [f2]
    try rw [f3]
    try rw [f4]
    try rw [f5]
    try rw [f6]
    field_simp
    try ring

end SD.Nearfield
