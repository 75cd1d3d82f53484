import Verif.Lemmas.Faxen
import Verif.Lemmas.Conversions

/-!
# Every entry of the bead-coordinate far-field matrix is the Faxén response
-/

set_option autoImplicit false

namespace SD

open Spec

theorem sep_spec {r : Vec3} {a b : ℝ} (ha : 0 < a) (hb : 0 < b) (hr : len r > 1 / 10 ^ 8) :
    (minfRS r a b).1 = sep r a b ∧ (minfRS r a b).2 = len (sep r a b) := by
  have hl : 0 < len r := lt_trans (by positivity) hr
  have hlr : r ≠ 0 := by
    rintro rfl
    simp [len] at hl
  unfold minfRS sep
  simp only [norm3_eq_len]
  have e : (len r > 1 / 10 ^ 8 ∧ 2 * len r / (a + b) < 2.001) ↔ len r < 2.001 * ((a + b) / 2) := by
    rw [div_lt_iff₀ (by positivity)]
    constructor
    · rintro ⟨-, h⟩; linarith
    · intro h; exact ⟨hr, by linarith⟩
  by_cases h : len r < 2.001 * ((a + b) / 2)
  · rw [if_pos (e.mpr h), if_pos h]
    constructor
    · funext i; dsimp only; ring
    · dsimp only
      have : len (fun i => 2.001 * ((a + b) / 2) / len r * r i)
          = 2.001 * ((a + b) / 2) / len r * len r := by
        rw [len, len]
        simp only [mul_pow]
        rw [← Finset.mul_sum, Real.sqrt_mul (by positivity), Real.sqrt_sq (by positivity)]
      rw [this]
      field_simp
  · rw [if_neg (fun g => h (e.mp g)), if_neg h]
    exact ⟨rfl, rfl⟩

theorem five_basis5 (p q : Fin 5) : five (basis5 p) q = if p = q then 1 else 0 := by
  have h3 : Real.sqrt 3 ^ 2 = 3 := Real.sq_sqrt (by norm_num)
  have h3p : 0 < Real.sqrt 3 := Real.sqrt_pos.mpr (by norm_num)
  have h2p : 0 < Real.sqrt 2 := Real.sqrt_pos.mpr (by norm_num)
  fin_cases p <;> fin_cases q <;> simp [five, basis5] <;> field_simp <;> nlinarith

theorem basis5_symm (p : Fin 5) : SymTraceless (basis5 p) := by
  have h3p : 0 < Real.sqrt 3 := Real.sqrt_pos.mpr (by norm_num)
  constructor
  · intro i j
    fin_cases p <;> fin_cases i <;> fin_cases j <;> simp [basis5]
  · fin_cases p <;> simp [basis5] <;> field_simp <;> ring

/-- Contraction of a symmetric traceless tensor with a basis matrix reads off its `five`. -/
theorem basis5_contract (T : Fin 3 → Fin 3 → ℝ) (h : SymTraceless T) (q : Fin 5) :
    ∑ j, ∑ k, basis5 q j k * T j k = five T q := by
  have h3 : Real.sqrt 3 ^ 2 = 3 := Real.sq_sqrt (by norm_num)
  have h2 : Real.sqrt 2 ^ 2 = 2 := Real.sq_sqrt (by norm_num)
  have h3p : 0 < Real.sqrt 3 := Real.sqrt_pos.mpr (by norm_num)
  have h2p : 0 < Real.sqrt 2 := Real.sqrt_pos.mpr (by norm_num)
  have t : T 2 2 = -T 0 0 - T 1 1 := by linarith [h.2]
  have s10 := h.1 1 0
  have s20 := h.1 2 0
  have s21 := h.1 2 1
  simp only [Fin.sum_univ_three, s10, s20, s21, t]
  fin_cases q <;> simp [five, basis5] <;> field_simp <;> ring_nf <;>
    (try simp only [h3, h2]) <;> ring_nf

/-! ## Tracelessness -/

section Trace
variable {r : Vec3} (h : r ≠ 0)
include h

theorem D_J_trace (i : Fin 3) :
    D_J r (len r) 0 i 0 + D_J r (len r) 1 i 1 + D_J r (len r) 2 i 2 = 0 := by
  have := oseen_div h i
  simp only [pd_oseen h, Fin.sum_univ_three] at this
  rw [D_J_symm r _ 0 i 0, D_J_symm r _ 1 i 1, D_J_symm r _ 2 i 2]
  exact this

theorem DLap_J_trace (i : Fin 3) :
    DLap_J r (len r) i 0 0 + DLap_J r (len r) i 1 1 + DLap_J r (len r) i 2 2 = 0 := by
  have hs := len_pos h
  have h2 := len_sq r
  simp only [DLap_J]
  fin_cases i <;> simp [kron] <;> field_simp <;> rw [h2] <;> ring

theorem DD_J_trace (l m : Fin 3) :
    DD_J r (len r) l 0 m 0 + DD_J r (len r) l 1 m 1 + DD_J r (len r) l 2 m 2 = 0 := by
  have e : pd l (fun r => ∑ i, pd i (oseen i m) r) r = 0 := by
    rw [pd_congr (g := fun _ => 0) (fun r hr => oseen_div hr m) h, pd_zero]
  rw [pd_sum _ (fun i _ => ((oseen_sm i m).pd i).diff h), Fin.sum_univ_three] at e
  simp only [pd_pd_oseen h] at e
  rw [DD_J_symm r _ l 0 m 0, DD_J_symm r _ l 1 m 1, DD_J_symm r _ l 2 m 2]
  exact e

theorem DLap_K_trace (l i : Fin 3) :
    DLap_K r (len r) l i 0 0 + DLap_K r (len r) l i 1 1 + DLap_K r (len r) l i 2 2 = 0 := by
  have hs := len_pos h
  have h2 := len_sq r
  simp only [DLap_K, kronkron_mul]
  fin_cases i <;> fin_cases l <;> simp [kron] <;> field_simp <;>
    (try rw [show len r ^ 4 = (len r ^ 2) ^ 2 by ring]) <;> rw [h2] <;> ring

theorem resp_stress_symTraceless (a b : ℝ) (l1 : Load) :
    SymTraceless fun j k => response a b l1 (.stress j k) r := by
  have t1 := DLap_J_trace h
  have t2 := D_J_trace h
  have t3 := DD_J_trace h
  have t4 := DLap_K_trace h
  have tK : ∀ l m, D_K r (len r) l m 0 0 + D_K r (len r) l m 1 1 + D_K r (len r) l m 2 2 = 0 := by
    intro l m; simp only [D_K]; linear_combination t3 l m
  have sK : ∀ l m j k, D_K r (len r) l m j k = D_K r (len r) l m k j := by
    intro l m j k; simp only [D_K]; ring
  cases l1 with
  | force i =>
    simp only [resp_FS a b i _ _ h]
    constructor
    · intro j k
      simp only [tensorK, Lap_K, DLap_J_symm r (len r) i j k]; ring
    · simp only [tensorK, Lap_K]
      linear_combination -(t2 i) - (a ^ 2 / 6 + b ^ 2 / 10) * t1 i
  | torque i =>
    simp only [resp_TS a b i _ _ h]
    constructor
    · intro j k
      simp only [sK _ _ j k]
    · rw [← mul_add, ← mul_add]
      simp only [← Finset.sum_add_distrib, ← mul_add, tK]
      simp
  | stress i j =>
    simp only [resp_SS a b i j _ _ h]
    constructor
    · intro k l
      simp only [sK _ _ k l, DLap_K_symm3 r (len r) _ _ k l]
    · linear_combination -(1 / 2) * (tK j i + tK i j
        + (a ^ 2 + b ^ 2) / 10 * (t4 j i + t4 i j))

theorem respTo_s (a b : ℝ) (l1 : Load) (q : Fin 5) :
    respTo a b l1 (.s q) r = five (fun j k => response a b l1 (.stress j k) r) q :=
  basis5_contract _ (resp_stress_symTraceless h a b l1) q

end Trace

/-! ## Condensed rows -/

theorem five_mul (c : ℝ) (T : Fin 3 → Fin 3 → ℝ) (p : Fin 5) :
    five (fun i j => c * T i j) p = c * five T p := by
  fin_cases p <;> simp [five] <;> ring

theorem con_M13_row_five (r : Vec3) (s a1 a2 : ℝ) (i : Fin 3) (c mu : ℝ) :
    con_M13_row r s a1 a2 i c mu = five fun j k => M13 r s a1 a2 i j k c mu := by
  funext p
  fin_cases p <;> simp [con_M13_row, five, hs3p1, hs3m1, s2] <;> ring

theorem con_M23_row_five (r : Vec3) (s a1 a2 : ℝ) (i : Fin 3) (c mu : ℝ) :
    con_M23_row r s a1 a2 i c mu = five fun j k => M23 r s a1 a2 i j k c mu := by
  funext p
  fin_cases p <;> simp [con_M23_row, five, hs3p1, hs3m1, s2] <;> ring

theorem condense53_five (f : Fin 3 → Fin 3 → Fin 3 → ℝ) (p : Fin 5) (j : Fin 3) :
    condense53 f p j = five (fun a b => f j a b) p := by
  simp only [condense53, Fin.sum_univ_five]
  fin_cases p <;> simp [five, cond_E, cond_idx, hs3p1, hs3m1, s2] <;> ring

theorem condense55_five (f : Fin 3 → Fin 3 → Fin 3 → Fin 3 → ℝ) (p q : Fin 5) :
    condense55 f p q = five (fun i j => five (fun k l => f i j k l) q) p := by
  simp only [condense55, Fin.sum_univ_five]
  fin_cases p <;> fin_cases q <;> simp [five, cond_E, cond_idx, hs3p1, hs3m1, s2] <;> ring

/-! ## Values of the blocks -/

section Values
variable {r : Vec3} (h : r ≠ 0) (hs : len r > eps10) (a b c mu : ℝ)
include h hs

omit h in
theorem abs_sum_gt : |r 0| + |r 1| + |r 2| > eps10 := by
  refine lt_of_lt_of_le hs ?_
  apply Real.sqrt_le_iff.mpr
  have a0 := abs_nonneg (r 0)
  have a1 := abs_nonneg (r 1)
  have a2 := abs_nonneg (r 2)
  refine ⟨by positivity, ?_⟩
  rw [Fin.sum_univ_three, ← sq_abs (r 0), ← sq_abs (r 1), ← sq_abs (r 2)]
  nlinarith [mul_nonneg a0 a1, mul_nonneg a0 a2, mul_nonneg a1 a2]

theorem M11_resp (i j : Fin 3) : M11 (r i) (r j) (len r) a b i j c mu
    = c * response a b (.force i) (.force j) r := by
  rw [resp_FF a b i j h, M11, if_pos hs]

theorem M12_resp (i j : Fin 3) : M12 r (len r) a b i j c mu
    = c * response a b (.force i) (.torque j) r := by
  rw [resp_FT a b i j h, M12, if_pos hs, Lap_R_zero]; ring

theorem M12_resp' (i j : Fin 3) : M12 (-r) (len r) b a j i c mu
    = c * response a b (.torque i) (.force j) r := by
  rw [M12_neg, resp_TF a b i j h, M12, if_pos hs, Lap_R_zero]; ring

theorem M13_resp (i j k : Fin 3) : M13 r (len r) a b i j k c mu
    = c * response a b (.force i) (.stress j k) r := by
  rw [resp_FS a b i j k h, M13, if_pos hs]; ring

theorem M13_resp' (i j k : Fin 3) : M13 (-r) (len r) b a i j k c mu
    = c * response a b (.stress j k) (.force i) r := by
  rw [M13_neg, resp_SF a b j k i h, M13, if_pos hs]; ring

theorem M22_resp (i j : Fin 3) : M22 r (len r) a b i j c mu
    = c * response a b (.torque i) (.torque j) r := by
  rw [resp_TT a b i j h, M22, if_pos (abs_sum_gt hs)]
  simp only [eps_filter]; ring

theorem M23_resp (i j k : Fin 3) : M23 r (len r) a b i j k c mu
    = c * response a b (.torque i) (.stress j k) r := by
  rw [resp_TS a b i j k h, M23, if_pos (abs_sum_gt hs)]
  simp only [eps_filter]
  simp only [mul_add, Finset.sum_add_distrib]
  rw [show ∑ l, ∑ m, eps i l m * (b ^ 2 / 6 * DLap_K r (len r) l m j k) = 0 from
    eps_symm_sum i (fun l m => b ^ 2 / 6 * DLap_K r (len r) l m j k)
      (fun l m => by rw [DLap_K_symm1])]
  ring

omit hs in
theorem M33_resp (i j k l : Fin 3) : M33 r (len r) a b i j k l c mu
    = c * response a b (.stress i j) (.stress k l) r := by
  rw [resp_SS a b i j k l h, M33]; ring

end Values

theorem sum4_swap (F : Fin 3 → Fin 3 → Fin 3 → Fin 3 → ℝ) :
    ∑ k, ∑ l, ∑ m, ∑ n, F k l m n = ∑ k, ∑ l, ∑ m, ∑ n, F m n k l := by
  simp only [Fin.sum_univ_three]; ring

/-- Response is reciprocal: swapping the two particles transposes it. -/
theorem resp_recip {r : Vec3} (h : r ≠ 0) (a b : ℝ) (l1 l2 : Load) :
    response a b l1 l2 r = response b a l2 l1 (-r) := by
  have h' : -r ≠ 0 := neg_ne_zero.mpr h
  have hl : len (-r) = len r := by simp [len]
  have nR : ∀ i j, rotletR (-r) (len r) i j = -rotletR r (len r) i j := by
    intro i j
    simp only [rotletR_eq, D_J_neg, mul_neg, Finset.sum_neg_distrib]
  have nK : ∀ i j k, tensorK (-r) (len r) i j k = -tensorK r (len r) i j k := by
    intro i j k; simp only [tensorK, D_J_neg]; ring
  have nDK : ∀ i j k l, D_K (-r) (len r) i j k l = D_K r (len r) i j k l := by
    intro i j k l; simp only [D_K, DD_J_neg]
  cases l1 with
  | force i =>
    cases l2 with
    | force j =>
      rw [resp_FF a b i j h, resp_FF b a j i h', hl]
      simp only [oseenJ, Lap_J, Pi.neg_apply, kron_comm i j]; ring
    | torque j => rw [resp_FT a b i j h, resp_TF b a j i h', hl, nR]; ring
    | stress j k =>
      rw [resp_FS a b i j k h, resp_SF b a j k i h', hl, nK]
      simp only [Lap_K, DLap_J_neg]; ring
  | torque i =>
    cases l2 with
    | force j => rw [resp_TF a b i j h, resp_FT b a j i h', hl, nR]
    | torque j =>
      rw [resp_TT a b i j h, resp_TT b a j i h', hl]
      simp only [D_R_eq, DD_J_neg, Finset.mul_sum]
      rw [sum4_swap]
      refine Finset.sum_congr rfl fun k _ => Finset.sum_congr rfl fun l _ =>
        Finset.sum_congr rfl fun m _ => Finset.sum_congr rfl fun n _ => ?_
      rw [DD_J_symm' r _ m k n l, DD_J_symm r _ k m n l]; ring
    | stress j k => rw [resp_TS a b i j k h, resp_ST b a j k i h', hl]; simp only [nDK]
  | stress i j =>
    cases l2 with
    | force k =>
      rw [resp_SF a b i j k h, resp_FS b a k i j h', hl, nK]
      simp only [Lap_K, DLap_J_neg]; ring
    | torque k => rw [resp_ST a b i j k h, resp_TS b a k i j h', hl]; simp only [nDK]
    | stress k l =>
      rw [resp_SS a b i j k l h, resp_SS b a k l i j h', hl]
      simp only [nDK, DLap_K_neg]
      have e1 : D_K r (len r) j i k l + D_K r (len r) i j k l
          = D_K r (len r) l k i j + D_K r (len r) k l i j := by
        simp only [D_K]
        rw [DD_J_symm' r _ j l i k, DD_J_symm r _ l j i k, DD_J_symm' r _ j k i l,
          DD_J_symm r _ k j i l, DD_J_symm' r _ i l j k, DD_J_symm r _ l i j k,
          DD_J_symm' r _ i k j l, DD_J_symm r _ k i j l]
        ring
      have e2 : DLap_K r (len r) j i k l + DLap_K r (len r) i j k l
          = DLap_K r (len r) l k i j + DLap_K r (len r) k l i j := by
        simp only [DLap_K, kronkron_mul]
        simp only [kron_comm l k, kron_comm k i, kron_comm l i, kron_comm k j, kron_comm l j,
          kron_comm j i]
        ring
      rw [e1, e2]
      ring

end SD
