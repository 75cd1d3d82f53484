import Verif.Spec.Twist
import Mathlib.Analysis.SpecialFunctions.Pow.Deriv
import Mathlib.Tactic.Linarith
import Mathlib.Tactic.Positivity
import Mathlib.Tactic.FieldSimp

/-!
# The derivatives of swirls
-/

set_option autoImplicit false

namespace SD.Twist

open Filter Topology

/-- The power of the distance. -/
noncomputable def pw (e q t : ℝ) : ℝ := (t ^ 2 + q) ^ e

theorem pw_deriv (e q : ℝ) {t : ℝ} (h : 0 < t ^ 2 + q) : HasDerivAt (pw e q) (2 * e * t * pw (e - 1) q t) t := by
  have h1 : HasDerivAt (fun t : ℝ => t ^ 2 + q) (2 * t) t := by
    simpa using (hasDerivAt_pow 2 t).add_const q
  have h2 := h1.rpow_const (p := e) (Or.inl h.ne')
  refine (h2.congr_deriv ?_)
  unfold pw
  ring

theorem pw_near (q : ℝ) {t : ℝ} (h : 0 < t ^ 2 + q) : ∀ᶠ x in 𝓝 t, 0 < x ^ 2 + q :=
  (by fun_prop : Continuous fun x : ℝ => x ^ 2 + q).continuousAt.eventually_const_lt h

theorem pw_second (c q : ℝ) {t : ℝ} (h : 0 < t ^ 2 + q) :
    deriv (deriv fun x => c * pw (-3 / 2) q x) t = c * (-3 * pw (-5 / 2) q t + 15 * t ^ 2 * pw (-7 / 2) q t) := by
  have e : deriv (fun x => c * pw (-3 / 2) q x) =ᶠ[𝓝 t] fun x => c * (-3 * (x * pw (-5 / 2) q x)) := by
    filter_upwards [pw_near q h] with x hx
    rw [((pw_deriv (-3 / 2) q hx).const_mul c).deriv, show (-3 / 2 - 1 : ℝ) = -5 / 2 from by norm_num]
    ring
  rw [e.deriv_eq]
  have h2 := ((((hasDerivAt_id t).mul (pw_deriv (-5 / 2) q h)).const_mul (-3)).const_mul c)
  refine HasDerivAt.deriv (h2.congr_deriv ?_)
  rw [show (-5 / 2 - 1 : ℝ) = -7 / 2 from by norm_num, id]
  ring

theorem pw_second' (c q : ℝ) {t : ℝ} (h : 0 < t ^ 2 + q) :
    deriv (deriv fun x => c * (x * pw (-3 / 2) q x)) t = c * (-9 * t * pw (-5 / 2) q t + 15 * t ^ 3 * pw (-7 / 2) q t) := by
  have e : deriv (fun x => c * (x * pw (-3 / 2) q x)) =ᶠ[𝓝 t] fun x => c * (pw (-3 / 2) q x - 3 * (x ^ 2 * pw (-5 / 2) q x)) := by
    filter_upwards [pw_near q h] with x hx
    refine HasDerivAt.deriv ((((hasDerivAt_id x).mul (pw_deriv (-3 / 2) q hx)).const_mul c).congr_deriv ?_)
    rw [show (-3 / 2 - 1 : ℝ) = -5 / 2 from by norm_num, id]
    ring
  rw [e.deriv_eq]
  have h2 := ((pw_deriv (-3 / 2) q h).sub (((hasDerivAt_pow 2 t).mul (pw_deriv (-5 / 2) q h)).const_mul 3)).const_mul c
  refine HasDerivAt.deriv (h2.congr_deriv ?_)
  rw [show (-3 / 2 - 1 : ℝ) = -5 / 2 from by norm_num, show (-5 / 2 - 1 : ℝ) = -7 / 2 from by norm_num]
  push_cast
  ring

theorem pw_first (c q : ℝ) {t : ℝ} (h : 0 < t ^ 2 + q) :
    deriv (fun x => c * pw (-3 / 2) q x) t = c * (-3 * t * pw (-5 / 2) q t) := by
  rw [((pw_deriv (-3 / 2) q h).const_mul c).deriv, show (-3 / 2 - 1 : ℝ) = -5 / 2 from by norm_num]
  ring

theorem pw_down {q t : ℝ} (h : 0 < t ^ 2 + q) : pw (-5 / 2) q t = (t ^ 2 + q) * pw (-7 / 2) q t := by
  unfold pw
  rw [show (-5 / 2 : ℝ) = 1 + -7 / 2 from by norm_num, Real.rpow_add h, Real.rpow_one]

end SD.Twist
