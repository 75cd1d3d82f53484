import Verif.Spec.Series
import Verif.Lemmas.Lubrication
import Verif.Model.Nearfield
import Mathlib.Analysis.SpecialFunctions.Log.Deriv
import Mathlib.Analysis.SpecificLimits.Normed
import Mathlib.Tactic.LinearCombination
import Mathlib.Tactic.FieldSimp
import Mathlib.Tactic.Positivity

/-!
# Power series with logarithmic singularities
-/

set_option autoImplicit false

namespace SD

open Spec Nearfield Lub

/-! ## Sums in closed form -/

theorem sum_pow_even {t : ℝ} (h0 : 0 < t) (h1 : t < 1) : HasSum (fun k : ℕ => t ^ (2 * k)) (1 - t ^ 2)⁻¹ := by
  have h : t ^ 2 < 1 := by nlinarith
  simpa only [← pow_mul] using hasSum_geometric_of_lt_one (sq_nonneg t) h

theorem sum_pow_odd {t : ℝ} (h0 : 0 < t) (h1 : t < 1) : HasSum (fun k : ℕ => t ^ (2 * k + 1)) (t * (1 - t ^ 2)⁻¹) := by
  refine ((sum_pow_even h0 h1).mul_left t).congr_fun fun k => ?_
  ring

theorem shift1 {f : ℕ → ℝ} {S : ℝ} (h : HasSum (fun k => f (k + 1)) S) : HasSum f (S + f 0) := by
  have := (hasSum_nat_add_iff (f := f) 1).mp h
  simpa using this

theorem unshift1 {f : ℕ → ℝ} {S : ℝ} (h : HasSum f S) : HasSum (fun k => f (k + 1)) (S - f 0) := by
  have := (hasSum_nat_add_iff' (f := f) 1).mpr h
  simpa using this

section
variable {t : ℝ} (h0 : 0 < t) (h1 : t < 1)
include h0 h1

theorem sq_abs_lt : |t ^ 2| < 1 := by
  rw [abs_of_pos (by positivity)]
  nlinarith

theorem sum_log_even : HasSum (fun k : ℕ => 2 / ((2 * k : ℕ) : ℝ) * t ^ (2 * k)) (-Real.log (1 - t ^ 2)) := by
  have := shift1 (f := fun k : ℕ => 2 / ((2 * k : ℕ) : ℝ) * t ^ (2 * k)) (S := -Real.log (1 - t ^ 2)) (by
    refine (Real.hasSum_pow_div_log_of_abs_lt_one (sq_abs_lt h0 h1)).congr_fun fun k => ?_
    push_cast
    field_simp
    ring)
  simpa using this

theorem sum_prod_even : HasSum (fun k : ℕ => 4 / (((2 * k : ℕ) : ℝ) * ((2 * k : ℕ) + 2)) * t ^ (2 * k))
    (1 + (1 - t ^ 2) / t ^ 2 * Real.log (1 - t ^ 2)) := by
  have hl := Real.hasSum_pow_div_log_of_abs_lt_one (sq_abs_lt h0 h1)
  have h := hl.sub ((unshift1 hl).mul_left (t ^ 2)⁻¹)
  have := shift1 (f := fun k : ℕ => 4 / (((2 * k : ℕ) : ℝ) * ((2 * k : ℕ) + 2)) * t ^ (2 * k)) (by
    refine h.congr_fun fun k => ?_
    push_cast
    have : (k : ℝ) + 1 ≠ 0 := by positivity
    have : (k : ℝ) + 1 + 1 ≠ 0 := by positivity
    field_simp
    ring)
  convert this using 1
  simp
  field_simp
  ring

theorem sum_prod_even' : HasSum (fun k : ℕ => 4 / (((2 * k : ℕ) : ℝ) * ((2 * k : ℕ) + -2)) * t ^ (2 * k))
    (t ^ 2 + (1 - t ^ 2) * Real.log (1 - t ^ 2)) := by
  have hl := Real.hasSum_pow_div_log_of_abs_lt_one (sq_abs_lt h0 h1)
  have h := (hl.mul_left (t ^ 2)).sub (unshift1 hl)
  have := shift1 (f := fun k : ℕ => 4 / (((2 * k : ℕ) : ℝ) * ((2 * k : ℕ) + -2)) * t ^ (2 * k)) (shift1 (by
    refine h.congr_fun fun k => ?_
    push_cast
    have : (k : ℝ) + 1 ≠ 0 := by positivity
    have : (k : ℝ) + 1 + 1 ≠ 0 := by positivity
    have e : 2 * ((k : ℝ) + 1 + 1) + -2 = 2 * (k + 1) := by ring
    rw [e]
    field_simp
    ring))
  convert this using 1
  simp
  ring

theorem sum_log_odd : HasSum (fun k : ℕ => 2 / ((2 * k + 1 : ℕ) : ℝ) * t ^ (2 * k + 1)) (Real.log (1 + t) - Real.log (1 - t)) := by
  refine (Real.hasSum_log_sub_log_of_abs_lt_one (x := t) (by rw [abs_of_pos h0]; exact h1)).congr_fun fun k => ?_
  push_cast
  ring

theorem sum_prod_odd : HasSum (fun k : ℕ => 4 / (((2 * k + 1 : ℕ) : ℝ) * ((2 * k + 1 : ℕ) + 2)) * t ^ (2 * k + 1))
    (2 / t - (1 - t ^ 2) / t ^ 2 * (Real.log (1 + t) - Real.log (1 - t))) := by
  have hl := sum_log_odd h0 h1
  have h := hl.sub ((unshift1 hl).mul_left (t ^ 2)⁻¹)
  have := h.congr_fun (g := fun k : ℕ => 4 / (((2 * k + 1 : ℕ) : ℝ) * ((2 * k + 1 : ℕ) + 2)) * t ^ (2 * k + 1)) fun k => by
    push_cast
    have : 2 * (k : ℝ) + 1 ≠ 0 := by positivity
    have : 2 * (k : ℝ) + 1 + 2 ≠ 0 := by positivity
    have e : 2 * ((k : ℝ) + 1) + 1 = 2 * k + 1 + 2 := by ring
    rw [e]
    field_simp
    ring
  rw [show 2 / t - (1 - t ^ 2) / t ^ 2 * (Real.log (1 + t) - Real.log (1 - t)) = Real.log (1 + t) - Real.log (1 - t)
      - (t ^ 2)⁻¹ * (Real.log (1 + t) - Real.log (1 - t) - 2 / ((2 * 0 + 1 : ℕ) : ℝ) * t ^ (2 * 0 + 1)) from by
    push_cast
    field_simp
    ring]
  exact this

theorem sum_prod_odd' : HasSum (fun k : ℕ => 4 / (((2 * k + 1 : ℕ) : ℝ) * ((2 * k + 1 : ℕ) + -2)) * t ^ (2 * k + 1))
    (-2 * t - (1 - t ^ 2) * (Real.log (1 + t) - Real.log (1 - t))) := by
  have hl := sum_log_odd h0 h1
  have h := (hl.mul_left (t ^ 2)).sub (unshift1 hl)
  have := shift1 (f := fun k : ℕ => 4 / (((2 * k + 1 : ℕ) : ℝ) * ((2 * k + 1 : ℕ) + -2)) * t ^ (2 * k + 1)) (by
    refine h.congr_fun fun k => ?_
    push_cast
    have : 2 * (k : ℝ) + 1 ≠ 0 := by positivity
    have : 2 * (k : ℝ) + 1 + 2 ≠ 0 := by positivity
    have e : 2 * ((k : ℝ) + 1) + 1 = 2 * k + 1 + 2 := by ring
    have e' : 2 * (k : ℝ) + 1 + 2 + -2 = 2 * k + 1 := by ring
    rw [e, e']
    field_simp
    ring)
  convert this using 1
  norm_num
  ring

end

/-! ## The limiting forms -/

theorem ratio_pos {xi : ℝ} (h : 0 < xi) : 0 < 2 / (2 + xi) ∧ 2 / (2 + xi) < 1 :=
  ⟨by positivity, by rw [div_lt_one (by positivity)]; linarith⟩

/-- `log ((4 + xi) / (2 + xi) ^ 2)` is small. -/
theorem logA {xi : ℝ} (h : 0 < xi) : |Real.log ((4 + xi) / (2 + xi) ^ 2)| ≤ xi := by
  have h1 : (4 + xi) / (2 + xi) ^ 2 ≤ 1 := by rw [div_le_one (by positivity)]; nlinarith
  rw [abs_of_nonpos (Real.log_nonpos (by positivity) h1), ← Real.log_inv]
  refine (Real.log_le_sub_one_of_pos (by positivity)).trans ?_
  rw [inv_div, sub_le_iff_le_add, div_le_iff₀ (by positivity)]
  nlinarith

theorem logB {xi : ℝ} (h : 0 < xi) : |Real.log (1 + xi / 4)| ≤ xi / 4 := by
  rw [abs_of_nonneg (Real.log_nonneg (by linarith))]
  linarith [Real.log_le_sub_one_of_pos (show 0 < 1 + xi / 4 by positivity)]

theorem logC {xi : ℝ} (h : 0 < xi) (h1 : xi ≤ 1) : |xi * Real.log xi| ≤ 1 := by
  rw [mul_comm]
  exact (Real.abs_log_mul_self_lt xi h h1).le

theorem one_sub_even {xi : ℝ} (h : 0 < xi) :
    Real.log (1 - (2 / (2 + xi)) ^ 2) = Real.log xi + Real.log ((4 + xi) / (2 + xi) ^ 2) := by
  rw [← Real.log_mul h.ne' (by positivity)]
  congr 1
  field_simp
  ring

theorem log_odd {xi : ℝ} (h : 0 < xi) :
    Real.log (1 + 2 / (2 + xi)) - Real.log (1 - 2 / (2 + xi)) = -Real.log xi + 2 * Real.log 2 + Real.log (1 + xi / 4) := by
  rw [← Real.log_div (by positivity) (by have := (ratio_pos h).2; linarith),
    show (1 + 2 / (2 + xi)) / (1 - 2 / (2 + xi)) = 2 ^ 2 * (1 + xi / 4) / xi from by
      have : 1 - 2 / (2 + xi) ≠ 0 := by have := (ratio_pos h).2; linarith
      have e : 1 - 2 / (2 + xi) = xi / (2 + xi) := by field_simp; ring
      rw [e]
      field_simp
      ring,
    Real.log_div (by positivity) h.ne', Real.log_mul (by norm_num) (by positivity), Real.log_pow]
  push_cast
  ring

theorem near_even (g1 g2 g3 : ℝ) : NearSum 0 (lubTerm g1 g2 g3 2) (lub g1 g2 (3 / 4 * g1 - g3) g3) := by
  refine ⟨|g1| + |g2| + 3 * |g3|, fun xi h hle => ?_⟩
  obtain ⟨t0, t1⟩ := ratio_pos h
  have hs := (((sum_pow_even t0 t1).mul_left g1).add ((sum_log_even t0 t1).mul_left g2)).sub ((sum_prod_even t0 t1).mul_left g3)
  refine ⟨_, hs.congr_fun fun k => ?_, ?_⟩
  · unfold lubTerm
    simp only [add_zero]
    ring
  · rw [one_sub_even h]
    unfold lub
    rw [Real.log_inv]
    have hA := logA h
    have hC := logC h hle
    generalize Real.log ((4 + xi) / (2 + xi) ^ 2) = A at hA ⊢
    generalize Real.log xi = L at hC ⊢
    have e1 : (1 - (2 / (2 + xi)) ^ 2)⁻¹ = xi⁻¹ + 3 / 4 + xi / (4 * (4 + xi)) := by
      have : 1 - (2 / (2 + xi)) ^ 2 = xi * (4 + xi) / (2 + xi) ^ 2 := by field_simp; ring
      rw [this]
      field_simp
      ring
    have e2 : (1 - (2 / (2 + xi)) ^ 2) / (2 / (2 + xi)) ^ 2 = xi + xi ^ 2 / 4 := by field_simp; ring
    rw [e1, e2]
    have e3 : g1 * xi⁻¹ + g2 * -L + (3 / 4 * g1 - g3) + g3 * xi * -L - (g1 * (xi⁻¹ + 3 / 4 + xi / (4 * (4 + xi))) + g2 * -(L + A)
        - g3 * (1 + (xi + xi ^ 2 / 4) * (L + A))) = -g1 * (xi / (4 * (4 + xi))) + g2 * A
          + g3 * (xi / 4 * (xi * L) + (xi + xi ^ 2 / 4) * A) := by ring
    rw [e3]
    have b1 : |xi / (4 * (4 + xi))| ≤ xi := by
      rw [abs_of_pos (by positivity), div_le_iff₀ (by positivity)]
      nlinarith
    have b2 : |xi / 4 * (xi * L) + (xi + xi ^ 2 / 4) * A| ≤ 3 * xi := by
      refine (abs_add_le _ _).trans ?_
      rw [abs_mul, abs_mul (xi + xi ^ 2 / 4), abs_of_pos (show 0 < xi / 4 by positivity),
        abs_of_pos (show 0 < xi + xi ^ 2 / 4 by positivity)]
      nlinarith [abs_nonneg A, abs_nonneg (xi * L), mul_le_mul_of_nonneg_left hC h.le,
        mul_le_mul_of_nonneg_left hA (show 0 ≤ xi + xi ^ 2 / 4 by positivity)]
    refine (abs_add_le _ _).trans ?_
    refine (add_le_add (abs_add_le _ _) le_rfl).trans ?_
    rw [abs_mul, abs_mul, abs_mul, abs_neg]
    nlinarith [mul_le_mul_of_nonneg_left b1 (abs_nonneg g1), mul_le_mul_of_nonneg_left hA (abs_nonneg g2),
      mul_le_mul_of_nonneg_left b2 (abs_nonneg g3)]

theorem near_even' (g1 g2 g3 : ℝ) : NearSum 0 (lubTerm g1 g2 g3 (-2)) (lub g1 g2 (3 / 4 * g1 - g3) g3) := by
  refine ⟨|g1| + |g2| + 9 * |g3|, fun xi h hle => ?_⟩
  obtain ⟨t0, t1⟩ := ratio_pos h
  have hs := (((sum_pow_even t0 t1).mul_left g1).add ((sum_log_even t0 t1).mul_left g2)).sub ((sum_prod_even' t0 t1).mul_left g3)
  refine ⟨_, hs.congr_fun fun k => ?_, ?_⟩
  · unfold lubTerm
    simp only [add_zero]
    ring
  · rw [one_sub_even h]
    unfold lub
    rw [Real.log_inv]
    have hA := logA h
    have hC := logC h hle
    generalize Real.log ((4 + xi) / (2 + xi) ^ 2) = A at hA ⊢
    generalize Real.log xi = L at hC ⊢
    have e1 : (1 - (2 / (2 + xi)) ^ 2)⁻¹ = xi⁻¹ + 3 / 4 + xi / (4 * (4 + xi)) := by
      have : 1 - (2 / (2 + xi)) ^ 2 = xi * (4 + xi) / (2 + xi) ^ 2 := by field_simp; ring
      rw [this]
      field_simp
      ring
    have e2 : 1 - (2 / (2 + xi)) ^ 2 = xi * ((4 + xi) / (2 + xi) ^ 2) := by field_simp; ring
    have e4 : (2 / (2 + xi)) ^ 2 = 1 - xi * ((4 + xi) / (2 + xi) ^ 2) := by rw [← e2]; ring
    have e5 : (4 + xi) / (2 + xi) ^ 2 = 1 - xi * ((3 + xi) / (2 + xi) ^ 2) := by field_simp; ring
    have q0 : 0 ≤ (4 + xi) / (2 + xi) ^ 2 := by positivity
    have q1 : (4 + xi) / (2 + xi) ^ 2 ≤ 1 := by rw [div_le_one (by positivity)]; nlinarith
    have r0 : 0 ≤ (3 + xi) / (2 + xi) ^ 2 := by positivity
    have r1 : (3 + xi) / (2 + xi) ^ 2 ≤ 1 := by rw [div_le_one (by positivity)]; nlinarith
    rw [e1, e2, e4]
    generalize (4 + xi) / (2 + xi) ^ 2 = q at q0 q1 e5 ⊢
    generalize (3 + xi) / (2 + xi) ^ 2 = r at r0 r1 e5 ⊢
    have e3 : g1 * xi⁻¹ + g2 * -L + (3 / 4 * g1 - g3) + g3 * xi * -L - (g1 * (xi⁻¹ + 3 / 4 + xi / (4 * (4 + xi))) + g2 * -(L + A)
        - g3 * (1 - xi * q + xi * q * (L + A))) = -g1 * (xi / (4 * (4 + xi))) + g2 * A
          + g3 * (-(xi * r) * (xi * L) + (-(xi * q) + xi * q * A)) := by rw [e5]; ring
    rw [e3]
    have b1 : |xi / (4 * (4 + xi))| ≤ xi := by
      rw [abs_of_pos (by positivity), div_le_iff₀ (by positivity)]
      nlinarith
    have b2 : |-(xi * r) * (xi * L) + (-(xi * q) + xi * q * A)| ≤ 9 * xi := by
      have c1 : xi * r ≤ xi := mul_le_of_le_one_right h.le r1
      have c2 : xi * q ≤ xi := mul_le_of_le_one_right h.le q1
      refine (abs_add_le _ _).trans ?_
      refine (add_le_add le_rfl (abs_add_le _ _)).trans ?_
      rw [abs_mul, abs_neg, abs_neg, abs_mul (xi * q), abs_of_nonneg (mul_nonneg h.le r0), abs_of_nonneg (mul_nonneg h.le q0)]
      have := mul_le_mul c1 hC (abs_nonneg _) h.le
      have := mul_le_mul c2 (hA.trans hle) (abs_nonneg _) h.le
      linarith
    refine (abs_add_le _ _).trans ?_
    refine (add_le_add (abs_add_le _ _) le_rfl).trans ?_
    rw [abs_mul, abs_mul, abs_mul, abs_neg]
    nlinarith [mul_le_mul_of_nonneg_left b1 (abs_nonneg g1), mul_le_mul_of_nonneg_left hA (abs_nonneg g2),
      mul_le_mul_of_nonneg_left b2 (abs_nonneg g3)]

theorem odd_inv {xi : ℝ} (h : 0 < xi) :
    2 / (2 + xi) * (1 - (2 / (2 + xi)) ^ 2)⁻¹ = xi⁻¹ + 1 / 4 - xi / (4 * (4 + xi)) := by
  have : 1 - (2 / (2 + xi)) ^ 2 = xi * (4 + xi) / (2 + xi) ^ 2 := by field_simp; ring
  rw [this]
  field_simp
  ring

theorem near_odd (g1 g2 g3 : ℝ) :
    NearSum 1 (lubTerm g1 g2 g3 2) (lub g1 g2 (1 / 4 * g1 + 2 * g2 * Real.log 2 - 2 * g3) g3) := by
  refine ⟨|g1| + |g2| + 9 * |g3|, fun xi h hle => ?_⟩
  obtain ⟨t0, t1⟩ := ratio_pos h
  have hs := (((sum_pow_odd t0 t1).mul_left g1).add ((sum_log_odd t0 t1).mul_left g2)).sub ((sum_prod_odd t0 t1).mul_left g3)
  refine ⟨_, hs.congr_fun fun k => ?_, ?_⟩
  · unfold lubTerm
    ring
  · rw [log_odd h, odd_inv h]
    unfold lub
    rw [Real.log_inv]
    have hB := logB h
    have hC := logC h hle
    have h2 : |Real.log 2| ≤ 1 := by
      rw [abs_of_pos (Real.log_pos (by norm_num))]
      linarith [Real.log_le_sub_one_of_pos (show (0 : ℝ) < 2 by norm_num)]
    generalize Real.log (1 + xi / 4) = B at hB ⊢
    generalize Real.log xi = L at hC ⊢
    generalize Real.log 2 = D at h2 ⊢
    have e2 : (1 - (2 / (2 + xi)) ^ 2) / (2 / (2 + xi)) ^ 2 = xi + xi ^ 2 / 4 := by field_simp; ring
    have e4 : 2 / (2 / (2 + xi)) = 2 + xi := by field_simp
    rw [e2, e4]
    have e3 : g1 * xi⁻¹ + g2 * -L + (1 / 4 * g1 + 2 * g2 * D - 2 * g3) + g3 * xi * -L
        - (g1 * (xi⁻¹ + 1 / 4 - xi / (4 * (4 + xi))) + g2 * (-L + 2 * D + B)
          - g3 * (2 + xi - (xi + xi ^ 2 / 4) * (-L + 2 * D + B)))
        = g1 * (xi / (4 * (4 + xi))) + -g2 * B + g3 * (xi / 4 * (xi * L) + (xi + -(xi + xi ^ 2 / 4) * (2 * D + B))) := by ring
    rw [e3]
    have b1 : |xi / (4 * (4 + xi))| ≤ xi := by
      rw [abs_of_pos (by positivity), div_le_iff₀ (by positivity)]
      nlinarith
    have b2 : |xi / 4 * (xi * L) + (xi + -(xi + xi ^ 2 / 4) * (2 * D + B))| ≤ 9 * xi := by
      have c1 : xi + xi ^ 2 / 4 ≤ 2 * xi := by nlinarith
      have c2 : |2 * D + B| ≤ 3 := by
        refine (abs_add_le _ _).trans ?_
        rw [abs_mul, abs_two]
        linarith
      refine (abs_add_le _ _).trans ?_
      refine (add_le_add le_rfl (abs_add_le _ _)).trans ?_
      rw [abs_mul, abs_mul (-(xi + xi ^ 2 / 4)), abs_neg, abs_of_pos (show 0 < xi / 4 by positivity),
        abs_of_pos (show 0 < xi + xi ^ 2 / 4 by positivity), abs_of_pos h]
      have := mul_le_mul_of_nonneg_left hC (show 0 ≤ xi / 4 by positivity)
      have := mul_le_mul c1 c2 (abs_nonneg _) (by positivity)
      linarith
    refine (abs_add_le _ _).trans ?_
    refine (add_le_add (abs_add_le _ _) le_rfl).trans ?_
    rw [abs_mul, abs_mul, abs_mul, abs_neg]
    nlinarith [mul_le_mul_of_nonneg_left b1 (abs_nonneg g1), mul_le_mul_of_nonneg_left hB (abs_nonneg g2), mul_nonneg (abs_nonneg g2) h.le,
      mul_le_mul_of_nonneg_left b2 (abs_nonneg g3)]

theorem near_odd' (g1 g2 g3 : ℝ) :
    NearSum 1 (lubTerm g1 g2 g3 (-2)) (lub g1 g2 (1 / 4 * g1 + 2 * g2 * Real.log 2 + 2 * g3) g3) := by
  refine ⟨|g1| + |g2| + 9 * |g3|, fun xi h hle => ?_⟩
  obtain ⟨t0, t1⟩ := ratio_pos h
  have hs := (((sum_pow_odd t0 t1).mul_left g1).add ((sum_log_odd t0 t1).mul_left g2)).sub ((sum_prod_odd' t0 t1).mul_left g3)
  refine ⟨_, hs.congr_fun fun k => ?_, ?_⟩
  · unfold lubTerm
    ring
  · rw [log_odd h, odd_inv h]
    unfold lub
    rw [Real.log_inv]
    have hB := logB h
    have hC := logC h hle
    have h2 : |Real.log 2| ≤ 1 := by
      rw [abs_of_pos (Real.log_pos (by norm_num))]
      linarith [Real.log_le_sub_one_of_pos (show (0 : ℝ) < 2 by norm_num)]
    generalize Real.log (1 + xi / 4) = B at hB ⊢
    generalize Real.log xi = L at hC ⊢
    generalize Real.log 2 = D at h2 ⊢
    have e2 : 1 - (2 / (2 + xi)) ^ 2 = xi * ((4 + xi) / (2 + xi) ^ 2) := by field_simp; ring
    have e4 : 2 / (2 + xi) = 1 - xi * (1 / (2 + xi)) := by field_simp; ring
    have e5 : (4 + xi) / (2 + xi) ^ 2 = 1 - xi * ((3 + xi) / (2 + xi) ^ 2) := by field_simp; ring
    have q0 : 0 ≤ (4 + xi) / (2 + xi) ^ 2 := by positivity
    have q1 : (4 + xi) / (2 + xi) ^ 2 ≤ 1 := by rw [div_le_one (by positivity)]; nlinarith
    have r0 : 0 ≤ (3 + xi) / (2 + xi) ^ 2 := by positivity
    have r1 : (3 + xi) / (2 + xi) ^ 2 ≤ 1 := by rw [div_le_one (by positivity)]; nlinarith
    have p0 : 0 ≤ 1 / (2 + xi) := by positivity
    have p1 : 1 / (2 + xi) ≤ 1 := by rw [div_le_one (by positivity)]; linarith
    rw [e2, e4]
    generalize (4 + xi) / (2 + xi) ^ 2 = q at q0 q1 e5 ⊢
    generalize (3 + xi) / (2 + xi) ^ 2 = r at r0 r1 e5 ⊢
    generalize 1 / (2 + xi) = z at p0 p1 ⊢
    have e3 : g1 * xi⁻¹ + g2 * -L + (1 / 4 * g1 + 2 * g2 * D + 2 * g3) + g3 * xi * -L
        - (g1 * (xi⁻¹ + 1 / 4 - xi / (4 * (4 + xi))) + g2 * (-L + 2 * D + B)
          - g3 * (-2 * (1 - xi * z) - xi * q * (-L + 2 * D + B)))
        = g1 * (xi / (4 * (4 + xi))) + -g2 * B
          + g3 * (-(xi * r) * (xi * L) + (2 * (xi * z) + -(xi * q) * (2 * D + B))) := by rw [e5]; ring
    rw [e3]
    have b1 : |xi / (4 * (4 + xi))| ≤ xi := by
      rw [abs_of_pos (by positivity), div_le_iff₀ (by positivity)]
      nlinarith
    have b2 : |-(xi * r) * (xi * L) + (2 * (xi * z) + -(xi * q) * (2 * D + B))| ≤ 9 * xi := by
      have c1 : xi * r ≤ xi := mul_le_of_le_one_right h.le r1
      have c2 : xi * q ≤ xi := mul_le_of_le_one_right h.le q1
      have c3 : xi * z ≤ xi := mul_le_of_le_one_right h.le p1
      have c4 : |2 * D + B| ≤ 3 := by
        refine (abs_add_le _ _).trans ?_
        rw [abs_mul, abs_two]
        linarith
      refine (abs_add_le _ _).trans ?_
      refine (add_le_add le_rfl (abs_add_le _ _)).trans ?_
      rw [abs_mul, abs_neg, abs_mul (-(xi * q)), abs_neg, abs_of_nonneg (mul_nonneg h.le r0), abs_of_nonneg (mul_nonneg h.le q0),
        abs_of_nonneg (show 0 ≤ 2 * (xi * z) by positivity)]
      have := mul_le_mul c1 hC (abs_nonneg _) h.le
      have := mul_le_mul c2 c4 (abs_nonneg _) h.le
      linarith
    refine (abs_add_le _ _).trans ?_
    refine (add_le_add (abs_add_le _ _) le_rfl).trans ?_
    rw [abs_mul, abs_mul, abs_mul, abs_neg]
    nlinarith [mul_le_mul_of_nonneg_left b1 (abs_nonneg g1), mul_le_mul_of_nonneg_left hB (abs_nonneg g2), mul_nonneg (abs_nonneg g2) h.le,
      mul_le_mul_of_nonneg_left b2 (abs_nonneg g3)]

/-! ## Changing finitely many coefficients -/

theorem near_cut {p M N : ℕ} {f b : ℕ → ℝ} {F : ℝ → ℝ} (h : NearSum p b F) (hN : ∀ k, 2 * k + p ≤ M ↔ k < N) :
    NearSum p (continued M f b) (fun xi => F xi + ∑ k ∈ Finset.range N, (f (2 * k + p) - b (2 * k + p))) := by
  obtain ⟨K, hK⟩ := h
  refine ⟨K + ∑ k ∈ Finset.range N, |f (2 * k + p) - b (2 * k + p)| * (2 * k + p : ℕ), fun xi h hle => ?_⟩
  obtain ⟨S, hS, hF⟩ := hK xi h hle
  obtain ⟨t0, t1⟩ := ratio_pos h
  have hfin : HasSum (fun k => if k < N then (f (2 * k + p) - b (2 * k + p)) * (2 / (2 + xi)) ^ (2 * k + p) else 0)
      (∑ k ∈ Finset.range N, if k < N then (f (2 * k + p) - b (2 * k + p)) * (2 / (2 + xi)) ^ (2 * k + p) else 0) :=
    hasSum_sum_of_ne_finset_zero fun k hk => if_neg fun hh => hk (Finset.mem_range.mpr hh)
  refine ⟨_, (hS.add hfin).congr_fun fun k => ?_, ?_⟩
  · unfold continued
    simp only [hN]
    split_ifs <;> ring
  · rw [Finset.sum_congr rfl fun k hk => if_pos (Finset.mem_range.mp hk)]
    have e : F xi + ∑ k ∈ Finset.range N, (f (2 * k + p) - b (2 * k + p))
        - (S + ∑ k ∈ Finset.range N, (f (2 * k + p) - b (2 * k + p)) * (2 / (2 + xi)) ^ (2 * k + p))
        = (F xi - S) + ∑ k ∈ Finset.range N, (f (2 * k + p) - b (2 * k + p)) * (1 - (2 / (2 + xi)) ^ (2 * k + p)) := by
      simp only [mul_sub, mul_one, Finset.sum_sub_distrib]
      ring
    rw [e, add_mul, Finset.sum_mul]
    refine (abs_add_le _ _).trans (add_le_add hF ((Finset.abs_sum_le_sum_abs _ _).trans (Finset.sum_le_sum fun k _ => ?_)))
    rw [abs_mul, mul_assoc]
    refine mul_le_mul_of_nonneg_left ?_ (abs_nonneg _)
    rw [abs_of_nonneg (sub_nonneg.mpr (pow_le_one₀ t0.le t1.le))]
    have := one_add_mul_le_pow (show (-2 : ℝ) ≤ 2 / (2 + xi) - 1 by linarith) (2 * k + p)
    rw [add_sub_cancel] at this
    have e2 : 1 - 2 / (2 + xi) ≤ xi := by
      rw [sub_le_iff_le_add, ← sub_le_iff_le_add', le_div_iff₀ (by positivity)]
      nlinarith
    nlinarith [mul_le_mul_of_nonneg_left e2 (Nat.cast_nonneg (α := ℝ) (2 * k + p))]

theorem near_neg {p : ℕ} {c : ℕ → ℝ} {F : ℝ → ℝ} (h : NearSum p c F) : NearSum p (fun m => -c m) (fun xi => -F xi) := by
  obtain ⟨K, hK⟩ := h
  refine ⟨K, fun xi h hle => ?_⟩
  obtain ⟨S, hS, hF⟩ := hK xi h hle
  refine ⟨-S, hS.neg.congr_fun fun k => ?_, ?_⟩
  · ring
  · rw [← abs_neg]
    convert hF using 2
    ring

/-! ## The sums of the code -/

theorem sumover_even (n : ℕ) (g : ℕ → ℝ) : ∑ m ∈ sumover .even (2 * n), g m = ∑ k ∈ Finset.range n, g (2 * k + 2) := by
  induction n with
  | zero => rfl
  | succ n ih =>
    rw [Finset.sum_range_succ, ← ih]
    have : sumover .even (2 * (n + 1)) = insert (2 * n + 2) (sumover .even (2 * n)) := by
      ext m
      simp only [sumover, Finset.mem_filter, Finset.mem_Icc, Finset.mem_insert]
      omega
    rw [this, Finset.sum_insert, add_comm]
    simp only [sumover, Finset.mem_filter, Finset.mem_Icc]
    omega

theorem sumover_odd (n : ℕ) (g : ℕ → ℝ) : ∑ m ∈ sumover .odd (2 * n), g m = ∑ k ∈ Finset.range n, g (2 * k + 1) := by
  induction n with
  | zero => rfl
  | succ n ih =>
    rw [Finset.sum_range_succ, ← ih]
    have : sumover .odd (2 * (n + 1)) = insert (2 * n + 1) (sumover .odd (2 * n)) := by
      ext m
      simp only [sumover, Finset.mem_filter, Finset.mem_range, Finset.mem_insert]
      omega
    rw [this, Finset.sum_insert, add_comm]
    simp only [sumover, Finset.mem_filter, Finset.mem_range]
    omega

/-- Four times the sum of `1 / (m (m - 2))`, from that of `1 / (m (m + 2))`. -/
theorem tele_even (n : ℕ) : ∑ k ∈ Finset.range n, (4 : ℝ) / (((2 * k + 2 : ℕ) : ℝ) * ((2 * k + 2 : ℕ) + -2))
    = ∑ k ∈ Finset.range n, 4 / (((2 * k + 2 : ℕ) : ℝ) * ((2 * k + 2 : ℕ) + 2)) - 4 / (2 * n) / (2 * n + 2) := by
  induction n with
  | zero => simp
  | succ n ih =>
    rw [Finset.sum_range_succ, Finset.sum_range_succ, ih]
    rcases Nat.eq_zero_or_pos n with rfl | hn
    · norm_num
    · have : (n : ℝ) ≠ 0 := Nat.cast_ne_zero.mpr hn.ne'
      have e : 2 * (n : ℝ) + 2 + -2 = 2 * n := by ring
      push_cast
      rw [e]
      have : (n : ℝ) + 1 ≠ 0 := by positivity
      have : (n : ℝ) + 2 ≠ 0 := by positivity
      have e2 : 2 * ((n : ℝ) + 1) + 2 = 2 * (n + 2) := by ring
      have e3 : 2 * (n : ℝ) + 2 + 2 = 2 * (n + 2) := by ring
      have e4 : 2 * (n : ℝ) + 2 = 2 * (n + 1) := by ring
      rw [e2, e3, e4]
      field_simp
      ring

theorem tele_odd (n : ℕ) : ∑ k ∈ Finset.range n, (4 : ℝ) / (((2 * k + 1 : ℕ) : ℝ) * ((2 * k + 1 : ℕ) + -2))
    = ∑ k ∈ Finset.range n, 4 / (((2 * k + 1 : ℕ) : ℝ) * ((2 * k + 1 : ℕ) + 2)) - 4 - 4 / (2 * n - 1) / (2 * n + 1) := by
  induction n with
  | zero => norm_num
  | succ n ih =>
    rw [Finset.sum_range_succ, Finset.sum_range_succ, ih]
    push_cast
    have h1 : 2 * (n : ℝ) - 1 ≠ 0 := by
      rcases Nat.eq_zero_or_pos n with rfl | hn
      · norm_num
      · have : (1 : ℝ) ≤ n := by exact_mod_cast hn
        linarith
    have h2 : 2 * (n : ℝ) + 1 ≠ 0 := by positivity
    have h3 : 2 * (n : ℝ) + 3 ≠ 0 := by positivity
    have e1 : 2 * (n : ℝ) + 1 + -2 = 2 * n - 1 := by ring
    have e2 : 2 * ((n : ℝ) + 1) - 1 = 2 * n + 1 := by ring
    have e3 : 2 * ((n : ℝ) + 1) + 1 = 2 * n + 3 := by ring
    have e4 : 2 * (n : ℝ) + 1 + 2 = 2 * n + 3 := by ring
    rw [e1, e2, e3, e4]
    field_simp
    ring

end SD
