import Verif.Lemmas.Radial
import Verif.Model.Ewald
import Mathlib.Analysis.SpecialFunctions.Gaussian.GaussianIntegral
import Mathlib.Analysis.Calculus.ParametricIntervalIntegral
import Mathlib.MeasureTheory.Integral.IntervalIntegral.FundThmCalculus

/-!
# The screened distance and its derivatives
-/

set_option autoImplicit false

namespace SD.Ewald

open Spec MeasureTheory

theorem gauss_integrable : Integrable fun t : ℝ => Real.exp (-t ^ 2) := by
  have := integrable_exp_neg_mul_sq (b := 1) one_pos
  simpa using this

/-- The model's `erfc` is the complementary error function. -/
theorem erfc_eq_cerf (x : ℝ) : erfc x = cerf x := by
  have h := intervalIntegral.integral_interval_add_Ioi (a := (0 : ℝ)) (b := x) (μ := volume)
    gauss_integrable.integrableOn gauss_integrable.integrableOn
  have h0 := integral_gaussian_Ioi 1
  simp only [neg_mul, one_mul, div_one] at h0
  rw [h0] at h
  unfold erfc cerf
  have hp : Real.sqrt Real.pi ≠ 0 := (Real.sqrt_pos.mpr Real.pi_pos).ne'
  have : ∫ t in Set.Ioi x, Real.exp (-t ^ 2)
      = Real.sqrt Real.pi / 2 - ∫ t in (0 : ℝ)..x, Real.exp (-t ^ 2) := by linarith
  rw [this]
  field_simp

theorem erfc_deriv (x : ℝ) : HasDerivAt erfc (-(2 / Real.sqrt Real.pi * Real.exp (-x ^ 2))) x := by
  have hc : Continuous fun t : ℝ => Real.exp (-t ^ 2) := by fun_prop
  have h := intervalIntegral.integral_hasDerivAt_right (hc.intervalIntegrable 0 x)
    (hc.stronglyMeasurableAtFilter _ _) hc.continuousAt
  exact (h.const_mul _).const_sub 1

/-- The constant in the derivatives of `erfc`. -/
theorem gauss_deriv (lamb s : ℝ) :
    HasDerivAt (fun s => 2 / Real.sqrt Real.pi * Real.exp (-s ^ 2 * lamb ^ 2) * lamb)
      (-2 * lamb ^ 2 * s * (2 / Real.sqrt Real.pi * Real.exp (-s ^ 2 * lamb ^ 2) * lamb)) s := by
  have h1 : HasDerivAt (fun s : ℝ => -s ^ 2 * lamb ^ 2) (-(2 * s) * lamb ^ 2) s := by
    have := ((hasDerivAt_id s).fun_pow 2).fun_neg.mul_const (lamb ^ 2)
    refine hd_congr this (fun t => by simp) ?_
    simp
  have := ((h1.exp).const_mul (2 / Real.sqrt Real.pi)).mul_const lamb
  refine hd_congr this (fun t => rfl) ?_
  ring

/-- Each entry of `generate_erfcs` is the derivative of the one before. -/
theorem erfcs_deriv (lamb s : ℝ) (n : Fin 6) :
    HasDerivAt (fun s => generate_erfcs s lamb n.castSucc) (generate_erfcs s lamb n.succ) s := by
  have hE := gauss_deriv lamb s
  have hs := hasDerivAt_id s
  fin_cases n
  · have h0 : HasDerivAt (fun s : ℝ => lamb * s) lamb s := by
      simpa using (hasDerivAt_id s).const_mul lamb
    have := (erfc_deriv (lamb * s)).comp s h0
    refine hd_congr this (fun t => rfl) ?_
    change -(2 / Real.sqrt Real.pi * Real.exp (-s ^ 2 * lamb ^ 2) * lamb) = _
    rw [show -(lamb * s) ^ 2 = -s ^ 2 * lamb ^ 2 by ring]
    ring
  · refine hd_congr hE.fun_neg (fun t => rfl) ?_
    change 2 * lamb ^ 2 * s * (2 / Real.sqrt Real.pi * Real.exp (-s ^ 2 * lamb ^ 2) * lamb) = _
    ring
  · refine hd_congr ((hs.const_mul (2 * lamb ^ 2)).fun_mul hE) (fun t => rfl) ?_
    change -2 * lamb ^ 2 * (2 / Real.sqrt Real.pi * Real.exp (-s ^ 2 * lamb ^ 2) * lamb)
      * (2 * lamb ^ 2 * s ^ 2 - 1) = _
    simp only [id]
    ring
  · refine hd_congr ((hE.const_mul (-2 * lamb ^ 2)).fun_mul
      (((hs.fun_pow 2).const_mul (2 * lamb ^ 2)).sub_const 1)) (fun t => rfl) ?_
    change 4 * lamb ^ 4 * s * (2 / Real.sqrt Real.pi * Real.exp (-s ^ 2 * lamb ^ 2) * lamb)
      * (2 * lamb ^ 2 * s ^ 2 - 3) = _
    simp only [id]
    push_cast
    ring
  · refine hd_congr (((hs.const_mul (4 * lamb ^ 4)).fun_mul hE).fun_mul
      (((hs.fun_pow 2).const_mul (2 * lamb ^ 2)).sub_const 3)) (fun t => rfl) ?_
    change -4 * lamb ^ 4 * (2 / Real.sqrt Real.pi * Real.exp (-s ^ 2 * lamb ^ 2) * lamb)
      * (4 * lamb ^ 4 * s ^ 4 - 12 * lamb ^ 2 * s ^ 2 + 3) = _
    simp only [id]
    push_cast
    ring
  · refine hd_congr ((hE.const_mul (-4 * lamb ^ 4)).fun_mul
      ((((hs.fun_pow 4).const_mul (4 * lamb ^ 4)).fun_sub
        ((hs.fun_pow 2).const_mul (12 * lamb ^ 2))).add_const 3)) (fun t => rfl) ?_
    change 8 * lamb ^ 6 * s * (2 / Real.sqrt Real.pi * Real.exp (-s ^ 2 * lamb ^ 2) * lamb)
      * (4 * lamb ^ 4 * s ^ 4 - 20 * lamb ^ 2 * s ^ 2 + 15) = _
    simp only [id]
    push_cast
    ring

/-! ## Chains -/

/-- Coefficients of the chain of the distance. -/
noncomputable def freeCoeff : ℕ → ℝ
  | 0 => 1
  | n + 1 => freeCoeff n * (1 - 2 * n)

/-- The chain of the distance. -/
noncomputable def freeChain (n : ℕ) (s : ℝ) : ℝ := freeCoeff n * (s * (s ^ (2 * n))⁻¹)

theorem freeChain_chain : Chain freeChain := fun n s hs => by
  have h := ((hasDerivAt_id s).fun_mul (((hasDerivAt_id s).fun_pow (2 * n)).fun_inv
    (pow_ne_zero _ (by simpa using hs.ne')))).const_mul (freeCoeff n)
  refine hd_congr h (fun t => rfl) ?_
  simp only [freeChain, freeCoeff, id]
  cases n with
  | zero => simp; field_simp
  | succ n =>
    have e : 2 * (n + 1) - 1 = 2 * n + 1 := by omega
    rw [e]
    push_cast
    field_simp
    ring

/-- Moments of the Gaussian. -/
noncomputable def moment (lamb : ℝ) (n : ℕ) (w : ℝ) : ℝ :=
  ∫ t in (0 : ℝ)..1, (-(lamb ^ 2 * t ^ 2)) ^ n * Real.exp (-(lamb ^ 2 * t ^ 2) * w)

theorem moment_deriv (lamb : ℝ) (n : ℕ) (w : ℝ) :
    HasDerivAt (moment lamb n) (moment lamb (n + 1) w) w := by
  have hc : ∀ (k : ℕ) (x : ℝ), Continuous fun t : ℝ =>
      (-(lamb ^ 2 * t ^ 2)) ^ k * Real.exp (-(lamb ^ 2 * t ^ 2) * x) := fun k x => by fun_prop
  refine (intervalIntegral.hasDerivAt_integral_of_dominated_loc_of_deriv_le (μ := volume)
    (F := fun x t => (-(lamb ^ 2 * t ^ 2)) ^ n * Real.exp (-(lamb ^ 2 * t ^ 2) * x))
    (F' := fun x t => (-(lamb ^ 2 * t ^ 2)) ^ (n + 1) * Real.exp (-(lamb ^ 2 * t ^ 2) * x))
    (bound := fun t => (lamb ^ 2 * t ^ 2) ^ (n + 1) * Real.exp (lamb ^ 2 * t ^ 2 * (|w| + 1)))
    (Metric.ball_mem_nhds w one_pos) ?_ ?_ ?_ ?_ ?_ ?_).2
  · exact Filter.Eventually.of_forall fun x => (hc n x).aestronglyMeasurable
  · exact (hc n w).intervalIntegrable _ _
  · exact (hc (n + 1) w).aestronglyMeasurable
  · refine Filter.Eventually.of_forall fun t _ x hx => ?_
    rw [norm_mul, Real.norm_eq_abs, Real.norm_eq_abs, abs_pow, abs_neg, abs_of_nonneg (by positivity),
      Real.abs_exp]
    refine mul_le_mul_of_nonneg_left (Real.exp_le_exp.mpr ?_) (by positivity)
    rw [Metric.mem_ball, Real.dist_eq] at hx
    have h1 : -x ≤ |w| + 1 := by
      have := (abs_lt.mp hx).1
      have := neg_abs_le w
      linarith
    have h2 : 0 ≤ lamb ^ 2 * t ^ 2 := by positivity
    nlinarith
  · exact Continuous.intervalIntegrable (by fun_prop) _ _
  · refine Filter.Eventually.of_forall fun t _ x _ => ?_
    have h1 : HasDerivAt (fun x : ℝ => -(lamb ^ 2 * t ^ 2) * x) (-(lamb ^ 2 * t ^ 2)) x := by
      simpa using (hasDerivAt_id x).const_mul (-(lamb ^ 2 * t ^ 2))
    refine hd_congr ((h1.exp).const_mul ((-(lamb ^ 2 * t ^ 2)) ^ n)) (fun t => rfl) ?_
    ring

theorem moment_continuous (lamb : ℝ) (n : ℕ) : Continuous (moment lamb n) :=
  continuous_iff_continuousAt.mpr fun w => (moment_deriv lamb n w).continuousAt

theorem moment_zero (lamb : ℝ) (n : ℕ) : moment lamb n 0 = (-lamb ^ 2) ^ n / (2 * n + 1) := by
  unfold moment
  simp only [mul_zero, Real.exp_zero, mul_one]
  have e : ∀ t : ℝ, (-(lamb ^ 2 * t ^ 2)) ^ n = (-lamb ^ 2) ^ n * t ^ (2 * n) := fun t => by
    rw [← neg_mul, mul_pow, pow_mul]
  simp only [e]
  rw [intervalIntegral.integral_const_mul, integral_pow]
  simp
  ring

/-- The chain of the smooth distance `s erf(lamb s)`. -/
noncomputable def smoothChain (lamb : ℝ) (n : ℕ) (s : ℝ) : ℝ :=
  2 ^ n * (2 * lamb / Real.sqrt Real.pi)
    * (s ^ 2 * moment lamb n (s ^ 2) + n * moment lamb (n - 1) (s ^ 2))

theorem smoothChain_deriv (lamb : ℝ) (n : ℕ) (s : ℝ) :
    HasDerivAt (smoothChain lamb n) (s * smoothChain lamb (n + 1) s) s := by
  have hq : ∀ k, HasDerivAt (fun s => moment lamb k (s ^ 2)) (moment lamb (k + 1) (s ^ 2) * (2 * s)) s := by
    intro k
    have h2 : HasDerivAt (fun s : ℝ => s ^ 2) (2 * s) s := by
      simpa using (hasDerivAt_id s).fun_pow 2
    exact (moment_deriv lamb k (s ^ 2)).comp s h2
  have h := ((((hasDerivAt_id s).fun_pow 2).fun_mul (hq n)).fun_add ((hq (n - 1)).const_mul (n : ℝ))).const_mul
    (2 ^ n * (2 * lamb / Real.sqrt Real.pi))
  refine hd_congr h (fun t => rfl) ?_
  simp only [smoothChain, id, Nat.add_sub_cancel]
  cases n with
  | zero => simp; ring
  | succ n =>
    simp only [Nat.add_sub_cancel]
    push_cast
    ring

theorem smoothChain_chain (lamb : ℝ) : Chain (smoothChain lamb) := fun n s _ => smoothChain_deriv lamb n s

theorem smoothChain_continuous (lamb : ℝ) (n : ℕ) : Continuous (smoothChain lamb n) :=
  continuous_iff_continuousAt.mpr fun s => (smoothChain_deriv lamb n s).continuousAt

theorem smoothChain_zero (lamb : ℝ) (n : ℕ) :
    smoothChain lamb (n + 1) 0
      = 2 ^ (n + 1) * (2 * lamb / Real.sqrt Real.pi) * ((n + 1) * ((-lamb ^ 2) ^ n / (2 * n + 1))) := by
  simp only [smoothChain, Nat.add_sub_cancel]
  rw [show (0 : ℝ) ^ 2 = 0 by norm_num, moment_zero lamb n]
  push_cast
  ring

/-- The chain of the screened distance. -/
noncomputable def scr (lamb : ℝ) (n : ℕ) (s : ℝ) : ℝ := freeChain n s - smoothChain lamb n s

theorem scr_chain (lamb : ℝ) : Chain (scr lamb) := freeChain_chain.sub (smoothChain_chain lamb)

theorem scr_zero (lamb s : ℝ) : scr lamb 0 s = s * erfc (lamb * s) := by
  have h := intervalIntegral.mul_integral_comp_mul_left (a := (0 : ℝ)) (b := 1)
    (f := fun t => Real.exp (-t ^ 2)) (c := lamb * s)
  simp only [mul_zero, mul_one] at h
  unfold scr freeChain smoothChain erfc moment
  rw [← h]
  have e : ∀ x : ℝ, Real.exp (-(lamb * s * x) ^ 2) = Real.exp (-(lamb ^ 2 * x ^ 2) * s ^ 2) := fun x => by
    congr 1; ring
  simp only [e, freeCoeff]
  simp
  ring

/-- The field of the screened distance is the start of its chain. -/
theorem screened_eq (lamb : ℝ) (r : Vec3) : screened lamb r = scr lamb 0 (len r) := by
  rw [scr_zero, erfc_eq_cerf]; rfl

theorem Chain.step {g : ℕ → ℝ → ℝ} (h : Chain g) {c c' : ℝ → ℝ} {n : ℕ} (e : ∀ s, 0 < s → c s = g n s)
    (hc : ∀ s, 0 < s → HasDerivAt c (s * c' s) s) : ∀ s, 0 < s → c' s = g (n + 1) s := by
  intro s hs
  have e' : c =ᶠ[nhds s] g n := by
    filter_upwards [lt_mem_nhds hs] with t ht using e t ht
  have := ((hc s hs).congr_of_eventuallyEq e'.symm).unique (h n s hs)
  exact mul_left_cancel₀ hs.ne' this

/-- The chain of the screened distance in terms of the derivatives of `erfc`. -/
noncomputable def closed (e : Fin 7 → ℝ) (s : ℝ) : Fin 7 → ℝ :=
  ![s * e 0,
    e 0 / s + e 1,
    -e 0 / s ^ 3 + e 1 / s ^ 2 + e 2 / s,
    3 * e 0 / s ^ 5 - 3 * e 1 / s ^ 4 + e 3 / s ^ 2,
    -15 * e 0 / s ^ 7 + 15 * e 1 / s ^ 6 - 3 * e 2 / s ^ 5 - 2 * e 3 / s ^ 4 + e 4 / s ^ 3,
    105 * e 0 / s ^ 9 - 105 * e 1 / s ^ 8 + 30 * e 2 / s ^ 7 + 5 * e 3 / s ^ 6 - 5 * e 4 / s ^ 5
      + e 5 / s ^ 4,
    -945 * e 0 / s ^ 11 + 945 * e 1 / s ^ 10 - 315 * e 2 / s ^ 9 + 30 * e 4 / s ^ 7 - 9 * e 5 / s ^ 6
      + e 6 / s ^ 5]

theorem inv_pow_hd (n : ℕ) {s : ℝ} (hs : 0 < s) :
    HasDerivAt (fun s : ℝ => (s ^ n)⁻¹) (-(n : ℝ) * (s ^ (n + 1))⁻¹) s := by
  have h := ((hasDerivAt_id s).fun_pow n).fun_inv (by simpa using pow_ne_zero n hs.ne')
  refine hd_congr h (fun t => rfl) ?_
  cases n with
  | zero => simp
  | succ n =>
    simp only [Nat.add_sub_cancel, id]
    push_cast
    field_simp
    ring

theorem closed_deriv (lamb : ℝ) (n : Fin 6) (s : ℝ) (hs : 0 < s) :
    HasDerivAt (fun s => closed (generate_erfcs s lamb) s n.castSucc)
      (s * closed (generate_erfcs s lamb) s n.succ) s := by
  have d : ∀ n : Fin 6, HasDerivAt (fun s => generate_erfcs s lamb n.castSucc)
      (generate_erfcs s lamb n.succ) s := erfcs_deriv lamb s
  have e0 : HasDerivAt (fun s => generate_erfcs s lamb 0) (generate_erfcs s lamb 1) s := d 0
  have e1 : HasDerivAt (fun s => generate_erfcs s lamb 1) (generate_erfcs s lamb 2) s := d 1
  have e2 : HasDerivAt (fun s => generate_erfcs s lamb 2) (generate_erfcs s lamb 3) s := d 2
  have e3 : HasDerivAt (fun s => generate_erfcs s lamb 3) (generate_erfcs s lamb 4) s := d 3
  have e4 : HasDerivAt (fun s => generate_erfcs s lamb 4) (generate_erfcs s lamb 5) s := d 4
  have e5 : HasDerivAt (fun s => generate_erfcs s lamb 5) (generate_erfcs s lamb 6) s := d 5
  have i : ∀ n : ℕ, HasDerivAt (fun s : ℝ => (s ^ n)⁻¹) (-(n : ℝ) * (s ^ (n + 1))⁻¹) s :=
    fun n => inv_pow_hd n hs
  fin_cases n
  · refine hd_congr ((hasDerivAt_id s).fun_mul e0) (fun t => rfl) ?_
    change s * (generate_erfcs s lamb 0 / s + generate_erfcs s lamb 1) = _
    simp only [id]; field_simp
  · refine hd_congr ((e0.fun_mul (i 1)).fun_add e1) (fun t => ?_) ?_
    · change generate_erfcs t lamb 0 / t + generate_erfcs t lamb 1 = _
      ring
    · change s * (-generate_erfcs s lamb 0 / s ^ 3 + generate_erfcs s lamb 1 / s ^ 2
        + generate_erfcs s lamb 2 / s) = _
      push_cast; field_simp; ring
  · refine hd_congr (((e0.fun_neg.fun_mul (i 3)).fun_add (e1.fun_mul (i 2))).fun_add (e2.fun_mul (i 1)))
      (fun t => ?_) ?_
    · change -generate_erfcs t lamb 0 / t ^ 3 + generate_erfcs t lamb 1 / t ^ 2
        + generate_erfcs t lamb 2 / t = _
      ring
    · change s * (3 * generate_erfcs s lamb 0 / s ^ 5 - 3 * generate_erfcs s lamb 1 / s ^ 4
        + generate_erfcs s lamb 3 / s ^ 2) = _
      push_cast; field_simp; ring
  · refine hd_congr ((((e0.const_mul 3).fun_mul (i 5)).fun_sub ((e1.const_mul 3).fun_mul (i 4))).fun_add
      (e3.fun_mul (i 2))) (fun t => ?_) ?_
    · change 3 * generate_erfcs t lamb 0 / t ^ 5 - 3 * generate_erfcs t lamb 1 / t ^ 4
        + generate_erfcs t lamb 3 / t ^ 2 = _
      ring
    · change s * (-15 * generate_erfcs s lamb 0 / s ^ 7 + 15 * generate_erfcs s lamb 1 / s ^ 6
        - 3 * generate_erfcs s lamb 2 / s ^ 5 - 2 * generate_erfcs s lamb 3 / s ^ 4
        + generate_erfcs s lamb 4 / s ^ 3) = _
      push_cast; field_simp; ring
  · refine hd_congr (((((e0.const_mul (-15)).fun_mul (i 7)).fun_add ((e1.const_mul 15).fun_mul (i 6))).fun_sub
      ((e2.const_mul 3).fun_mul (i 5))).fun_sub ((e3.const_mul 2).fun_mul (i 4)) |>.fun_add
      (e4.fun_mul (i 3))) (fun t => ?_) ?_
    · change -15 * generate_erfcs t lamb 0 / t ^ 7 + 15 * generate_erfcs t lamb 1 / t ^ 6
        - 3 * generate_erfcs t lamb 2 / t ^ 5 - 2 * generate_erfcs t lamb 3 / t ^ 4
        + generate_erfcs t lamb 4 / t ^ 3 = _
      ring
    · change s * (105 * generate_erfcs s lamb 0 / s ^ 9 - 105 * generate_erfcs s lamb 1 / s ^ 8
        + 30 * generate_erfcs s lamb 2 / s ^ 7 + 5 * generate_erfcs s lamb 3 / s ^ 6
        - 5 * generate_erfcs s lamb 4 / s ^ 5 + generate_erfcs s lamb 5 / s ^ 4) = _
      push_cast; field_simp; ring
  · refine hd_congr ((((((e0.const_mul 105).fun_mul (i 9)).fun_sub ((e1.const_mul 105).fun_mul (i 8))).fun_add
      ((e2.const_mul 30).fun_mul (i 7))).fun_add ((e3.const_mul 5).fun_mul (i 6))).fun_sub
      ((e4.const_mul 5).fun_mul (i 5)) |>.fun_add (e5.fun_mul (i 4))) (fun t => ?_) ?_
    · change 105 * generate_erfcs t lamb 0 / t ^ 9 - 105 * generate_erfcs t lamb 1 / t ^ 8
        + 30 * generate_erfcs t lamb 2 / t ^ 7 + 5 * generate_erfcs t lamb 3 / t ^ 6
        - 5 * generate_erfcs t lamb 4 / t ^ 5 + generate_erfcs t lamb 5 / t ^ 4 = _
      ring
    · change s * (-945 * generate_erfcs s lamb 0 / s ^ 11 + 945 * generate_erfcs s lamb 1 / s ^ 10
        - 315 * generate_erfcs s lamb 2 / s ^ 9 + 30 * generate_erfcs s lamb 4 / s ^ 7
        - 9 * generate_erfcs s lamb 5 / s ^ 6 + generate_erfcs s lamb 6 / s ^ 5) = _
      push_cast; field_simp; ring

theorem closed_eq (lamb : ℝ) (n : Fin 7) {s : ℝ} (hs : 0 < s) :
    scr lamb n s = closed (generate_erfcs s lamb) s n := by
  have h0 : ∀ s, 0 < s → closed (generate_erfcs s lamb) s 0 = scr lamb 0 s := fun s _ => (scr_zero lamb s).symm
  have h1 := (scr_chain lamb).step (c' := fun s => closed (generate_erfcs s lamb) s 1) h0 (closed_deriv lamb 0)
  have h2 := (scr_chain lamb).step (c' := fun s => closed (generate_erfcs s lamb) s 2) h1 (closed_deriv lamb 1)
  have h3 := (scr_chain lamb).step (c' := fun s => closed (generate_erfcs s lamb) s 3) h2 (closed_deriv lamb 2)
  have h4 := (scr_chain lamb).step (c' := fun s => closed (generate_erfcs s lamb) s 4) h3 (closed_deriv lamb 3)
  have h5 := (scr_chain lamb).step (c' := fun s => closed (generate_erfcs s lamb) s 5) h4 (closed_deriv lamb 4)
  have h6 := (scr_chain lamb).step (c' := fun s => closed (generate_erfcs s lamb) s 6) h5 (closed_deriv lamb 5)
  fin_cases n
  · exact (h0 s hs).symm
  · exact (h1 s hs).symm
  · exact (h2 s hs).symm
  · exact (h3 s hs).symm
  · exact (h4 s hs).symm
  · exact (h5 s hs).symm
  · exact (h6 s hs).symm

end SD.Ewald
