import Verif.Lemmas.Dilute
import Verif.Lemmas.GrandResistance
import Verif.Props.FarField
import Verif.Props.NearField

/-!
Sums over the rows of a grand matrix, and positive quadratic forms.
-/

set_option autoImplicit false

namespace SD

open Spec

theorem sum_cols (c n : ℕ) (h : ℕ → ℝ) :
    ∑ i ∈ Finset.range (c * n), h i = ∑ u ∈ Finset.range n, ∑ k : Fin c, h (c * u + k) := by
  induction n with
  | zero => simp
  | succ n ih =>
    rw [Nat.mul_succ, Finset.sum_range_add, ih, Finset.sum_range_succ]
    congr 1
    rw [Finset.sum_range]

/-- A sum over all rows is a sum over the beads and their components. -/
theorem sum_rows (Ns Nd : ℕ) (h : ℕ → ℝ) :
    ∑ i ∈ Finset.range (11 * Ns + 6 * Nd), h i
      = ∑ u ∈ Finset.range (Ns + 2 * Nd), ∑ k : Fin 3, h (row Ns u (.f k))
        + ∑ u ∈ Finset.range Ns, (∑ k : Fin 3, h (row Ns u (.t k)) + ∑ p : Fin 5, h (row Ns u (.s p))) := by
  rw [show 11 * Ns + 6 * Nd = 3 * Ns + 3 * Ns + 5 * Ns + 3 * (2 * Nd) by omega, Finset.sum_range_add,
    Finset.sum_range_add, Finset.sum_range_add, Finset.sum_range_add _ Ns, Finset.sum_add_distrib,
    sum_cols, sum_cols, sum_cols, sum_cols]
  have e1 : ∑ u ∈ Finset.range Ns, ∑ k : Fin 3, h (3 * u + k)
      = ∑ u ∈ Finset.range Ns, ∑ k : Fin 3, h (row Ns u (.f k)) := by
    refine Finset.sum_congr rfl fun u hu => Finset.sum_congr rfl fun k _ => ?_
    simp only [row, if_pos (Finset.mem_range.mp hu)]
  have e2 : ∑ u ∈ Finset.range (2 * Nd), ∑ k : Fin 3, h (3 * Ns + 3 * Ns + 5 * Ns + (3 * u + k))
      = ∑ u ∈ Finset.range (2 * Nd), ∑ k : Fin 3, h (row Ns (Ns + u) (.f k)) := by
    refine Finset.sum_congr rfl fun u _ => Finset.sum_congr rfl fun k _ => ?_
    simp only [row, if_neg (show ¬ Ns + u < Ns by omega)]
    congr 1
    omega
  have e3 : ∑ u ∈ Finset.range Ns, ∑ k : Fin 3, h (3 * Ns + (3 * u + k))
      = ∑ u ∈ Finset.range Ns, ∑ k : Fin 3, h (row Ns u (.t k)) := by
    refine Finset.sum_congr rfl fun u _ => Finset.sum_congr rfl fun k _ => ?_
    simp only [row]
    congr 1
    omega
  have e4 : ∑ u ∈ Finset.range Ns, ∑ k : Fin 5, h (3 * Ns + 3 * Ns + (5 * u + k))
      = ∑ u ∈ Finset.range Ns, ∑ k : Fin 5, h (row Ns u (.s k)) := by
    refine Finset.sum_congr rfl fun u _ => Finset.sum_congr rfl fun k _ => ?_
    simp only [row]
    congr 1
    omega
  rw [e1, e2, e3, e4]
  ring

/-- A sum over all rows of something that depends on the bead only. -/
theorem sum_rows_le (Ns Nd : ℕ) (h : ℕ → ℝ) (g : ℕ → ℝ) (hg : ∀ u, 0 ≤ g u)
    (hh : ∀ u c, HasRow Ns Nd u c → h (row Ns u c) ≤ g u) :
    ∑ i ∈ Finset.range (11 * Ns + 6 * Nd), h i ≤ 11 * ∑ u ∈ Finset.range (Ns + 2 * Nd), g u := by
  rw [sum_rows]
  have h1 : ∑ u ∈ Finset.range (Ns + 2 * Nd), ∑ k : Fin 3, h (row Ns u (.f k))
      ≤ 3 * ∑ u ∈ Finset.range (Ns + 2 * Nd), g u := by
    rw [Finset.mul_sum]
    refine Finset.sum_le_sum fun u hu => ?_
    have : ∀ k : Fin 3, h (row Ns u (.f k)) ≤ g u := fun k =>
      hh u (.f k) (Finset.mem_range.mp hu)
    calc _ ≤ ∑ _k : Fin 3, g u := Finset.sum_le_sum fun k _ => this k
      _ = 3 * g u := by simp
  have h2 : ∑ u ∈ Finset.range Ns, (∑ k : Fin 3, h (row Ns u (.t k)) + ∑ p : Fin 5, h (row Ns u (.s p)))
      ≤ 8 * ∑ u ∈ Finset.range Ns, g u := by
    rw [Finset.mul_sum]
    refine Finset.sum_le_sum fun u hu => ?_
    have t1 : ∀ k : Fin 3, h (row Ns u (.t k)) ≤ g u := fun k =>
      hh u (.t k) (Finset.mem_range.mp hu)
    have t2 : ∀ k : Fin 5, h (row Ns u (.s k)) ≤ g u := fun k =>
      hh u (.s k) (Finset.mem_range.mp hu)
    calc _ ≤ ∑ _k : Fin 3, g u + ∑ _k : Fin 5, g u :=
          add_le_add (Finset.sum_le_sum fun k _ => t1 k) (Finset.sum_le_sum fun k _ => t2 k)
      _ = 8 * g u := by simp; ring
  have h3 : ∑ u ∈ Finset.range Ns, g u ≤ ∑ u ∈ Finset.range (Ns + 2 * Nd), g u :=
    Finset.sum_le_sum_of_subset_of_nonneg
      (Finset.range_subset_range.mpr (by omega)) fun u _ _ => hg u
  linarith

/-- A symmetrically dominated quadratic form is positive. -/
theorem dominated_pos (S : Finset ℕ) (N B : ℕ → ℕ → ℝ) (hB : ∀ i ∈ S, ∀ j ∈ S, i ≠ j → |N i j| ≤ B i j)
    (hBs : ∀ i ∈ S, ∀ j ∈ S, B i j = B j i) (hd : ∀ i ∈ S, ∑ j ∈ S.erase i, B i j < N i i) (v : ℕ → ℝ)
    (hv : ∃ i ∈ S, v i ≠ 0) : 0 < ∑ i ∈ S, v i * ∑ j ∈ S, N i j * v j := by
  have hterm : ∀ i ∈ S, ∀ j ∈ S.erase i, -(B i j * v i ^ 2 / 2) - B i j * v j ^ 2 / 2 ≤ v i * (N i j * v j) := by
    intro i hi j hj
    have hb := hB i hi j (Finset.mem_of_mem_erase hj) (Finset.ne_of_mem_erase hj).symm
    have hB0 : 0 ≤ B i j := le_trans (abs_nonneg _) hb
    have h1 : |v i * (N i j * v j)| ≤ B i j * (|v i| * |v j|) := by
      rw [abs_mul, abs_mul]
      have : |N i j| * (|v i| * |v j|) ≤ B i j * (|v i| * |v j|) := by gcongr
      linarith
    have h2 : |v i| * |v j| ≤ (v i ^ 2 + v j ^ 2) / 2 := by
      nlinarith [sq_nonneg (|v i| - |v j|), sq_abs (v i), sq_abs (v j)]
    have h3 := neg_abs_le (v i * (N i j * v j))
    nlinarith [mul_le_mul_of_nonneg_left h2 hB0]
  have hrow : ∀ i ∈ S, N i i * v i ^ 2 - ∑ j ∈ S.erase i, (B i j * v i ^ 2 / 2 + B i j * v j ^ 2 / 2)
      ≤ v i * ∑ j ∈ S, N i j * v j := by
    intro i hi
    rw [Finset.mul_sum, ← Finset.add_sum_erase S _ hi]
    have := Finset.sum_le_sum (hterm i hi)
    have e : ∑ j ∈ S.erase i, (-(B i j * v i ^ 2 / 2) - B i j * v j ^ 2 / 2)
        = -∑ j ∈ S.erase i, (B i j * v i ^ 2 / 2 + B i j * v j ^ 2 / 2) := by
      rw [← Finset.sum_neg_distrib]
      refine Finset.sum_congr rfl fun j _ => by ring
    rw [e] at this
    nlinarith
  have hswap : ∑ i ∈ S, ∑ j ∈ S.erase i, B i j * v j ^ 2 / 2 = ∑ i ∈ S, ∑ j ∈ S.erase i, B i j * v i ^ 2 / 2 := by
    have ex : ∀ f : ℕ → ℕ → ℝ, ∑ i ∈ S, ∑ j ∈ S.erase i, f i j
        = ∑ i ∈ S, ∑ j ∈ S, if i = j then 0 else f i j := by
      intro f
      refine Finset.sum_congr rfl fun i hi => ?_
      rw [← Finset.add_sum_erase S (fun j => if i = j then 0 else f i j) hi, if_pos rfl, zero_add]
      exact Finset.sum_congr rfl fun j hj => by rw [if_neg (Finset.ne_of_mem_erase hj).symm]
    rw [ex, ex, Finset.sum_comm]
    refine Finset.sum_congr rfl fun i hi => Finset.sum_congr rfl fun j hj => ?_
    by_cases h : i = j
    · rw [if_pos h, if_pos h.symm]
    · rw [if_neg h, if_neg (Ne.symm h), hBs i hi j hj]
  have hsum : ∑ i ∈ S, (N i i - ∑ j ∈ S.erase i, B i j) * v i ^ 2
      ≤ ∑ i ∈ S, v i * ∑ j ∈ S, N i j * v j := by
    refine le_trans (le_of_eq ?_) (Finset.sum_le_sum hrow)
    simp only [Finset.sum_add_distrib, Finset.sum_sub_distrib, sub_mul]
    rw [hswap]
    have : ∑ i ∈ S, (∑ j ∈ S.erase i, B i j) * v i ^ 2
        = 2 * ∑ i ∈ S, ∑ j ∈ S.erase i, B i j * v i ^ 2 / 2 := by
      rw [Finset.mul_sum]
      refine Finset.sum_congr rfl fun i _ => ?_
      rw [Finset.sum_mul, Finset.mul_sum]
      exact Finset.sum_congr rfl fun j _ => by ring
    rw [this]
    ring
  refine lt_of_lt_of_le ?_ hsum
  obtain ⟨i, hi, hvi⟩ := hv
  refine Finset.sum_pos' (fun j hj => mul_nonneg (sub_nonneg.mpr (hd j hj).le) (sq_nonneg _)) ⟨i, hi, ?_⟩
  exact mul_pos (sub_pos.mpr (hd i hi)) (by positivity)

/-- The radius power that goes with a component. -/
noncomputable def wt (a : ℝ) (c : Comp) : ℝ := Real.sqrt a * a ^ lvl c

theorem wt_pos {a : ℝ} (ha : 0 < a) (c : Comp) : 0 < wt a c := by
  unfold wt; have := Real.sqrt_pos.mpr ha; positivity

/-- The pair response in units of the radii. -/
theorem pairMob_wt_le {r : Vec3} {a b : ℝ} (ha : 0 < a) (hb : 0 < b) (hr : 1 / 10 ^ 8 < len r) (c1 c2 : Comp) :
    |pairMob a b c1 c2 (sep r a b)| * (wt a c1 * wt b c2) ≤ 320 * (Real.sqrt (a * b) / len r) := by
  have h0 : 0 < len r := lt_trans (by positivity) hr
  have hne := (sep_ne ha hb hr).1
  have hl := sep_len ha hb h0
  have hs := len_pos hne
  have h1 : len r ≤ len (sep r a b) := by rw [hl]; exact le_max_left _ _
  have h2 : a + b ≤ len (sep r a b) := by
    rw [hl]; refine le_trans ?_ (le_max_right _ _); nlinarith
  have h3 := pairMob_le hne ha hb h2 c1 c2
  have hw := mul_pos (wt_pos ha c1) (wt_pos hb c2)
  set s := len (sep r a b) with hsd
  have hsq : Real.sqrt (a * b) = Real.sqrt a * Real.sqrt b := Real.sqrt_mul ha.le b
  have ha' : a ^ lvl c1 ≤ s ^ lvl c1 := pow_le_pow_left₀ ha.le (by linarith) _
  have hb' : b ^ lvl c2 ≤ s ^ lvl c2 := pow_le_pow_left₀ hb.le (by linarith) _
  have sa := Real.sqrt_nonneg a
  have sb := Real.sqrt_nonneg b
  calc _ ≤ 320 / s ^ (1 + lvl c1 + lvl c2) * (wt a c1 * wt b c2) := by gcongr
    _ ≤ 320 / s ^ (1 + lvl c1 + lvl c2) * (Real.sqrt a * s ^ lvl c1 * (Real.sqrt b * s ^ lvl c2)) := by
        unfold wt; gcongr
    _ = 320 * (Real.sqrt (a * b) / s) := by
        rw [hsq, pow_add, pow_add, pow_one]; field_simp
    _ ≤ 320 * (Real.sqrt (a * b) / len r) := by gcongr

theorem selfMob_wt {mu a : ℝ} (hmu : 0 < mu) (ha : 0 < a) (c : Comp) :
    1 / (8 * Real.pi * mu) ≤ selfMob mu a c c * (wt a c * wt a c) := by
  have hp := Real.pi_pos
  have hq : Real.sqrt a * Real.sqrt a = a := Real.mul_self_sqrt ha.le
  cases c
  · simp only [selfMob, if_true, wt, lvl, pow_zero, mul_one, hq]
    rw [show 1 / (6 * Real.pi * mu * a) * a = 1 / (6 * Real.pi * mu) by field_simp]
    gcongr
    norm_num
  · simp only [selfMob, if_true, wt, lvl, pow_one]
    rw [show Real.sqrt a * a * (Real.sqrt a * a) = (Real.sqrt a * Real.sqrt a) * a ^ 2 by ring, hq,
      show 1 / (8 * Real.pi * mu * a ^ 3) * (a * a ^ 2) = 1 / (8 * Real.pi * mu) by field_simp]
  · simp only [selfMob, if_true, wt, lvl, pow_one]
    rw [show Real.sqrt a * a * (Real.sqrt a * a) = (Real.sqrt a * Real.sqrt a) * a ^ 2 by ring, hq,
      show 1 / (20 / 3 * Real.pi * mu * a ^ 3) * (a * a ^ 2) = 1 / (20 / 3 * Real.pi * mu) by field_simp]
    gcongr
    norm_num

end SD
