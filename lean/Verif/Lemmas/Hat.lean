import Verif.Lemmas.Zonal
import Mathlib.MeasureTheory.Group.Prod
import Mathlib.MeasureTheory.Integral.Prod

/-!
# Overlap of two projected spheres

Projected on a line, a sphere of radius `a` is the interval of half-length `a`.
-/

set_option autoImplicit false

namespace SD.Sph

open Spec MeasureTheory Set Metric

/-- A power on an interval. -/
noncomputable def box (a : ℝ) (k : ℕ) (t : ℝ) : ℝ := (Icc (-a) a).indicator (fun t => t ^ k) t

/-- Overlap of two intervals whose centres differ by `τ`. -/
noncomputable def hat (a b : ℝ) (k l : ℕ) (τ : ℝ) : ℝ := ∫ t, box a k t * box b l (t + τ)

theorem box_meas (a : ℝ) (k : ℕ) : Measurable (box a k) :=
  (measurable_id.pow_const k).indicator measurableSet_Icc

theorem box_le {a : ℝ} (ha : 0 ≤ a) (k : ℕ) (t : ℝ) : |box a k t| ≤ a ^ k := by
  unfold box
  by_cases h : t ∈ Icc (-a) a
  · rw [indicator_of_mem h, abs_pow]
    gcongr
    exact abs_le.mpr h
  · rw [indicator_of_notMem h, abs_zero]
    positivity

theorem box_out {a : ℝ} {k : ℕ} {t : ℝ} (h : a < |t|) : box a k t = 0 := by
  unfold box
  rw [indicator_of_notMem]
  intro h'
  exact absurd (abs_le.mpr h') (not_le.mpr h)

theorem box_int (a : ℝ) (k : ℕ) : Integrable (box a k) := by
  unfold box
  rw [show (fun t => (Icc (-a) a).indicator (fun t : ℝ => t ^ k) t) = (Icc (-a) a).indicator (fun t : ℝ => t ^ k) from rfl,
    integrable_indicator_iff measurableSet_Icc]
  exact (continuous_pow k).continuousOn.integrableOn_compact isCompact_Icc

theorem box2_int {b : ℝ} (hb : 0 ≤ b) (a : ℝ) (k l : ℕ) (τ : ℝ) : Integrable fun t => box a k t * box b l (t + τ) := by
  refine (box_int a k).mul_bdd (c := b ^ l) ((box_meas b l).comp (measurable_add_const τ)).aestronglyMeasurable ?_
  exact Filter.Eventually.of_forall fun t => box_le hb l _

theorem hat_meas (a b : ℝ) (k l : ℕ) : Measurable (hat a b k l) := by
  unfold hat
  have h : Measurable fun z : ℝ × ℝ => box a k z.2 * box b l (z.2 + z.1) :=
    ((box_meas a k).comp measurable_snd).mul ((box_meas b l).comp (measurable_snd.add measurable_fst))
  exact (h.stronglyMeasurable.integral_prod_right (ν := volume)).measurable

theorem hat_le {a b : ℝ} (ha : 0 ≤ a) (hb : 0 ≤ b) (k l : ℕ) (τ : ℝ) :
    |hat a b k l τ| ≤ b ^ l * ∫ t, |box a k t| := by
  unfold hat
  rw [← integral_const_mul]
  refine (abs_integral_le_integral_abs).trans (integral_mono (box2_int hb a k l τ).abs ((box_int a k).abs.const_mul _) fun t => ?_)
  dsimp only
  rw [abs_mul, mul_comm]
  gcongr
  exact box_le hb l _

theorem hat_weight {a b : ℝ} (ha : 0 ≤ a) (hb : 0 ≤ b) (k l : ℕ) : Weight (hat a b k l) :=
  ⟨hat_meas a b k l, _, hat_le ha hb k l⟩

theorem hat_weight' {a b : ℝ} (ha : 0 ≤ a) (hb : 0 ≤ b) (k l : ℕ) (s : ℝ) : Weight fun c => hat a b k l (s * c) :=
  ⟨(hat_meas a b k l).comp (measurable_const_mul s), _, fun c => hat_le ha hb k l _⟩

theorem hat_out {a b : ℝ} {k l : ℕ} {τ : ℝ} (h : a + b < |τ|) : hat a b k l τ = 0 := by
  unfold hat
  rw [← integral_zero ℝ ℝ (μ := volume)]
  congr 1
  funext t
  by_cases h1 : a < |t|
  · rw [box_out h1, zero_mul]
  · rw [box_out (a := b), mul_zero]
    have : |τ| ≤ |t + τ| + |t| := by
      have := abs_sub (t + τ) t
      rwa [add_sub_cancel_left] at this
    linarith

/-- Moments of the overlap, by exchanging the two integrations. -/
theorem hat_moment_full (a b : ℝ) (k l m : ℕ) :
    ∫ τ, τ ^ m * hat a b k l τ
      = ∫ t in Icc (-a) a, ∫ σ in Icc (-b) b, t ^ k * σ ^ l * (σ - t) ^ m := by
  set F : ℝ × ℝ → ℝ := fun z => (Icc (-a) a ×ˢ Icc (-b) b).indicator
    (fun z => z.1 ^ k * z.2 ^ l * (z.2 - z.1) ^ m) z with hF
  have hFi : Integrable F (volume.prod volume) := by
    have : IntegrableOn (fun z : ℝ × ℝ => z.1 ^ k * z.2 ^ l * (z.2 - z.1) ^ m) (Icc (-a) a ×ˢ Icc (-b) b)
        (volume.prod volume) :=
      (Continuous.continuousOn (by fun_prop)).integrableOn_compact (isCompact_Icc.prod isCompact_Icc)
    exact (integrable_indicator_iff (measurableSet_Icc.prod measurableSet_Icc)).mpr this
  have hsh := measurePreserving_prod_add (volume : Measure ℝ) (volume : Measure ℝ)
  have hFs : Integrable (fun z : ℝ × ℝ => F (z.1, z.1 + z.2)) (volume.prod volume) :=
    hsh.integrable_comp_of_integrable hFi
  have e : ∀ t σ, F (t, σ) = box a k t * box b l σ * (σ - t) ^ m := by
    intro t σ
    simp only [hF, box, indicator, mem_prod]
    by_cases h1 : t ∈ Icc (-a) a <;> by_cases h2 : σ ∈ Icc (-b) b <;> simp [h1, h2]
  calc ∫ τ, τ ^ m * hat a b k l τ = ∫ τ, ∫ t, F (t, t + τ) := by
        congr 1
        funext τ
        unfold hat
        rw [← integral_const_mul]
        congr 1
        funext t
        rw [e, add_sub_cancel_left]
        ring
    _ = ∫ t, ∫ τ, F (t, t + τ) := by
        exact (integral_integral_swap (f := fun t τ => F (t, t + τ)) hFs).symm
    _ = ∫ t, ∫ σ, F (t, σ) := by
        congr 1
        funext t
        exact integral_add_left_eq_self (fun σ => F (t, σ)) t
    _ = _ := by
        rw [← integral_indicator measurableSet_Icc]
        congr 1
        funext t
        by_cases h1 : t ∈ Icc (-a) a
        · rw [indicator_of_mem h1, ← integral_indicator measurableSet_Icc]
          congr 1
          funext σ
          rw [e]
          simp only [box, indicator, h1, if_true]
          split_ifs <;> ring
        · rw [indicator_of_notMem h1]
          simp only [e, box, indicator, h1, if_false, zero_mul, integral_zero]

theorem hat_moment {a b s : ℝ} (ha : 0 < a) (hb : 0 < b) (hs : a + b ≤ s) (k l m : ℕ) :
    mom (fun c => hat a b k l (s * c)) m
      = 2 * Real.pi / s ^ (m + 1) * ∫ t in (-a)..a, ∫ σ in (-b)..b, t ^ k * σ ^ l * (σ - t) ^ m := by
  have hs0 : 0 < s := by linarith
  unfold mom
  have h1 : ∫ c in (-1 : ℝ)..1, c ^ m * hat a b k l (s * c) = (s ^ (m + 1))⁻¹ * ∫ τ, τ ^ m * hat a b k l τ := by
    have := intervalIntegral.integral_comp_mul_left (fun τ => τ ^ m * hat a b k l τ) hs0.ne' (a := -1) (b := 1)
    have e1 : ∫ c in (-1 : ℝ)..1, (s * c) ^ m * hat a b k l (s * c)
        = s ^ m * ∫ c in (-1 : ℝ)..1, c ^ m * hat a b k l (s * c) := by
      rw [← intervalIntegral.integral_const_mul]
      congr 1
      funext c
      rw [mul_pow]; ring
    rw [e1, smul_eq_mul, mul_one, mul_neg, mul_one] at this
    have e2 : ∫ τ in (-s)..s, τ ^ m * hat a b k l τ = ∫ τ, τ ^ m * hat a b k l τ := by
      rw [intervalIntegral.integral_of_le (by linarith), ← integral_Icc_eq_integral_Ioc]
      refine setIntegral_eq_integral_of_forall_compl_eq_zero fun τ hτ => ?_
      rw [hat_out, mul_zero]
      refine lt_of_le_of_lt hs ?_
      by_contra h
      exact hτ (abs_le.mp (not_lt.mp h))
    rw [e2] at this
    rw [pow_succ, mul_inv, mul_assoc, ← this]
    field_simp
  rw [h1, hat_moment_full, intervalIntegral.integral_of_le (by linarith), ← integral_Icc_eq_integral_Ioc]
  simp only [intervalIntegral.integral_of_le (show -b ≤ b by linarith), ← integral_Icc_eq_integral_Ioc]
  ring

section Values

variable {a b s : ℝ}

/-- Integral of a polynomial over a symmetric interval. -/
theorem poly_int (a p0 p1 p2 p3 p4 p5 p6 : ℝ) :
    ∫ t in (-a)..a, (p0 + p1 * t + p2 * t ^ 2 + p3 * t ^ 3 + p4 * t ^ 4 + p5 * t ^ 5 + p6 * t ^ 6)
      = 2 * (p0 * a + p2 * a ^ 3 / 3 + p4 * a ^ 5 / 5 + p6 * a ^ 7 / 7) := by
  have i : ∀ (c : ℝ) (k : ℕ), IntervalIntegrable (fun t : ℝ => c * t ^ k) volume (-a) a :=
    fun c k => (by fun_prop : Continuous fun t : ℝ => c * t ^ k).intervalIntegrable _ _
  have h := fun (t : ℝ) => show p0 + p1 * t + p2 * t ^ 2 + p3 * t ^ 3 + p4 * t ^ 4 + p5 * t ^ 5 + p6 * t ^ 6
    = ∑ k ∈ Finset.range 7, (fun k => match k with | 0 => p0 | 1 => p1 | 2 => p2 | 3 => p3 | 4 => p4 | 5 => p5 | _ => p6) k * t ^ k by
      simp [Finset.sum_range_succ]
  simp only [h]
  rw [intervalIntegral.integral_finsetSum fun k _ => i _ k]
  simp only [intervalIntegral.integral_const_mul, integral_pow]
  simp [Finset.sum_range_succ]
  ring

theorem mom_00_0 (ha : 0 < a) (hb : 0 < b) (hs : a + b ≤ s) :
    mom (fun c => hat a b 0 0 (s * c)) 0 = 2 * Real.pi / s ^ 1 * (4 * a * b) := by
  rw [hat_moment ha hb hs]
  have h1 : ∀ t, ∫ σ in (-b)..b, t ^ 0 * σ ^ 0 * (σ - t) ^ 0 = (2 * b ^ 1 / 1) + (0) * t + (0) * t ^ 2 + (0) * t ^ 3 + (0) * t ^ 4 + (0) * t ^ 5 + (0) * t ^ 6 := by
    intro t
    rw [show (fun σ : ℝ => t ^ 0 * σ ^ 0 * (σ - t) ^ 0) = fun σ => (1 * t ^ 0) + (0) * σ + (0) * σ ^ 2 + (0) * σ ^ 3 + (0) * σ ^ 4 + (0) * σ ^ 5 + (0) * σ ^ 6 by
      funext σ; ring, poly_int]
    ring
  simp only [h1]
  rw [poly_int]
  ring

theorem mom_00_2 (ha : 0 < a) (hb : 0 < b) (hs : a + b ≤ s) :
    mom (fun c => hat a b 0 0 (s * c)) 2 = 2 * Real.pi / s ^ 3 * (4 * a * b * (a ^ 2 + b ^ 2) / 3) := by
  rw [hat_moment ha hb hs]
  have h1 : ∀ t, ∫ σ in (-b)..b, t ^ 0 * σ ^ 0 * (σ - t) ^ 2 = (2 * b ^ 3 / 3) + (0) * t + (2 * b ^ 1 / 1) * t ^ 2 + (0) * t ^ 3 + (0) * t ^ 4 + (0) * t ^ 5 + (0) * t ^ 6 := by
    intro t
    rw [show (fun σ : ℝ => t ^ 0 * σ ^ 0 * (σ - t) ^ 2) = fun σ => (1 * t ^ 2) + (-2 * t ^ 1) * σ + (1 * t ^ 0) * σ ^ 2 + (0) * σ ^ 3 + (0) * σ ^ 4 + (0) * σ ^ 5 + (0) * σ ^ 6 by
      funext σ; ring, poly_int]
    ring
  simp only [h1]
  rw [poly_int]
  ring

theorem mom_01_1 (ha : 0 < a) (hb : 0 < b) (hs : a + b ≤ s) :
    mom (fun c => hat a b 0 1 (s * c)) 1 = 2 * Real.pi / s ^ 2 * (4 * a * b ^ 3 / 3) := by
  rw [hat_moment ha hb hs]
  have h1 : ∀ t, ∫ σ in (-b)..b, t ^ 0 * σ ^ 1 * (σ - t) ^ 1 = (2 * b ^ 3 / 3) + (0) * t + (0) * t ^ 2 + (0) * t ^ 3 + (0) * t ^ 4 + (0) * t ^ 5 + (0) * t ^ 6 := by
    intro t
    rw [show (fun σ : ℝ => t ^ 0 * σ ^ 1 * (σ - t) ^ 1) = fun σ => (0) + (-1 * t ^ 1) * σ + (1 * t ^ 0) * σ ^ 2 + (0) * σ ^ 3 + (0) * σ ^ 4 + (0) * σ ^ 5 + (0) * σ ^ 6 by
      funext σ; ring, poly_int]
    ring
  simp only [h1]
  rw [poly_int]
  ring

theorem mom_01_3 (ha : 0 < a) (hb : 0 < b) (hs : a + b ≤ s) :
    mom (fun c => hat a b 0 1 (s * c)) 3 = 2 * Real.pi / s ^ 4 * (4 * a * b ^ 5 / 5 + 4 * a ^ 3 * b ^ 3 / 3) := by
  rw [hat_moment ha hb hs]
  have h1 : ∀ t, ∫ σ in (-b)..b, t ^ 0 * σ ^ 1 * (σ - t) ^ 3 = (2 * b ^ 5 / 5) + (0) * t + (6 * b ^ 3 / 3) * t ^ 2 + (0) * t ^ 3 + (0) * t ^ 4 + (0) * t ^ 5 + (0) * t ^ 6 := by
    intro t
    rw [show (fun σ : ℝ => t ^ 0 * σ ^ 1 * (σ - t) ^ 3) = fun σ => (0) + (-1 * t ^ 3) * σ + (3 * t ^ 2) * σ ^ 2 + (-3 * t ^ 1) * σ ^ 3 + (1 * t ^ 0) * σ ^ 4 + (0) * σ ^ 5 + (0) * σ ^ 6 by
      funext σ; ring, poly_int]
    ring
  simp only [h1]
  rw [poly_int]
  ring

theorem mom_11_0 (ha : 0 < a) (hb : 0 < b) (hs : a + b ≤ s) :
    mom (fun c => hat a b 1 1 (s * c)) 0 = 2 * Real.pi / s ^ 1 * (0) := by
  rw [hat_moment ha hb hs]
  have h1 : ∀ t, ∫ σ in (-b)..b, t ^ 1 * σ ^ 1 * (σ - t) ^ 0 = (0) + (0) * t + (0) * t ^ 2 + (0) * t ^ 3 + (0) * t ^ 4 + (0) * t ^ 5 + (0) * t ^ 6 := by
    intro t
    rw [show (fun σ : ℝ => t ^ 1 * σ ^ 1 * (σ - t) ^ 0) = fun σ => (0) + (1 * t ^ 1) * σ + (0) * σ ^ 2 + (0) * σ ^ 3 + (0) * σ ^ 4 + (0) * σ ^ 5 + (0) * σ ^ 6 by
      funext σ; ring, poly_int]
    ring
  simp only [h1]
  rw [poly_int]
  ring

theorem mom_11_2 (ha : 0 < a) (hb : 0 < b) (hs : a + b ≤ s) :
    mom (fun c => hat a b 1 1 (s * c)) 2 = 2 * Real.pi / s ^ 3 * (-(8 * a ^ 3 * b ^ 3 / 9)) := by
  rw [hat_moment ha hb hs]
  have h1 : ∀ t, ∫ σ in (-b)..b, t ^ 1 * σ ^ 1 * (σ - t) ^ 2 = (0) + (0) * t + (-4 * b ^ 3 / 3) * t ^ 2 + (0) * t ^ 3 + (0) * t ^ 4 + (0) * t ^ 5 + (0) * t ^ 6 := by
    intro t
    rw [show (fun σ : ℝ => t ^ 1 * σ ^ 1 * (σ - t) ^ 2) = fun σ => (0) + (1 * t ^ 3) * σ + (-2 * t ^ 2) * σ ^ 2 + (1 * t ^ 1) * σ ^ 3 + (0) * σ ^ 4 + (0) * σ ^ 5 + (0) * σ ^ 6 by
      funext σ; ring, poly_int]
    ring
  simp only [h1]
  rw [poly_int]
  ring

theorem mom_11_4 (ha : 0 < a) (hb : 0 < b) (hs : a + b ≤ s) :
    mom (fun c => hat a b 1 1 (s * c)) 4 = 2 * Real.pi / s ^ 5 * (-(16 / 15 * a ^ 3 * b ^ 3 * (a ^ 2 + b ^ 2))) := by
  rw [hat_moment ha hb hs]
  have h1 : ∀ t, ∫ σ in (-b)..b, t ^ 1 * σ ^ 1 * (σ - t) ^ 4 = (0) + (0) * t + (-8 * b ^ 5 / 5) * t ^ 2 + (0) * t ^ 3 + (-8 * b ^ 3 / 3) * t ^ 4 + (0) * t ^ 5 + (0) * t ^ 6 := by
    intro t
    rw [show (fun σ : ℝ => t ^ 1 * σ ^ 1 * (σ - t) ^ 4) = fun σ => (0) + (1 * t ^ 5) * σ + (-4 * t ^ 4) * σ ^ 2 + (6 * t ^ 3) * σ ^ 3 + (-4 * t ^ 2) * σ ^ 4 + (1 * t ^ 1) * σ ^ 5 + (0) * σ ^ 6 by
      funext σ; ring, poly_int]
    ring
  simp only [h1]
  rw [poly_int]
  ring

theorem hat_self (ha : 0 < a) : hat a a 0 0 0 = 2 * a ∧ hat a a 0 1 0 = 0 ∧ hat a a 1 0 0 = 0 ∧
    hat a a 1 1 0 = 2 * a ^ 3 / 3 := by
  have e : ∀ k l, hat a a k l 0 = ∫ t in (-a)..a, t ^ (k + l) := by
    intro k l
    unfold hat
    rw [intervalIntegral.integral_of_le (by linarith), ← integral_Icc_eq_integral_Ioc, ← integral_indicator measurableSet_Icc]
    congr 1
    funext t
    simp only [add_zero, box, indicator, pow_add]
    split_ifs <;> ring
  refine ⟨?_, ?_, ?_, ?_⟩ <;> rw [e, integral_pow] <;> norm_num <;> ring

theorem mom_const (h : ℝ) : mom (fun _ => h) 0 = 4 * Real.pi * h ∧ mom (fun _ => h) 2 = 4 * Real.pi * h / 3 ∧
    mom (fun _ => h) 4 = 4 * Real.pi * h / 5 := by
  unfold mom
  simp only [intervalIntegral.integral_mul_const, integral_pow]
  refine ⟨?_, ?_, ?_⟩ <;> norm_num <;> ring

end Values

end SD.Sph
