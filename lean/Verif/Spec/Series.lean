import Mathlib.Topology.Algebra.InfiniteSum.Defs
import Mathlib.Analysis.SpecialFunctions.Log.Basic

/-!
# Specification: functions near contact and series in the inverse distance

For two spheres at the distance `s = 2 + xi`, in units of their mean radius, the resistance functions are power series in
`2 / s` with coefficients that tend to a simple form.
-/

set_option autoImplicit false

namespace SD.Spec

/-- The form of the coefficients that makes a series diverge as `g1 / xi`, `g2 log (1 / xi)` and `g3 xi log (1 / xi)`. Both
`d = 2` and `d = -2` do. -/
noncomputable def lubTerm (g1 g2 g3 d : ℝ) (m : ℕ) : ℝ := g1 + 2 * g2 / m - 4 * g3 / (m * (m + d))

/-- The coefficients `f` as far as number `M`, and their limiting form from there on. -/
noncomputable def continued (M : ℕ) (f g : ℕ → ℝ) (m : ℕ) : ℝ := if m ≤ M then f m else g m

/-- The coefficient of `(2 / s) ^ m` in the series with the polynomials `F m` in the size ratio. -/
noncomputable def coeff (F : ℕ → ℝ → ℝ) (lam : ℝ) (m : ℕ) : ℝ := F m lam / (2 * (1 + lam)) ^ m

/-- As the gap `xi` closes, `F` is the sum of the series with coefficients `c` in the even powers (`p = 0`) or in the odd
powers (`p = 1`) of `2 / (2 + xi)`, up to an error that is at most in proportion to the gap. -/
def NearSum (p : ℕ) (c : ℕ → ℝ) (F : ℝ → ℝ) : Prop :=
  ∃ K, ∀ xi, 0 < xi → xi ≤ 1 →
    ∃ S, HasSum (fun k => c (2 * k + p) * (2 / (2 + xi)) ^ (2 * k + p)) S ∧ |F xi - S| ≤ K * xi

/-- The term of order `m` in the inverse distance `1 / r`, for spheres of radii `a` and `b`. -/
noncomputable def orderTerm (F : ℕ → ℝ → ℝ) (a b r : ℝ) (m : ℕ) : ℝ := coeff F (b / a) m * ((a + b) / r) ^ m

/-- What the coefficients beyond number `M` differ from their limiting form by, altogether. -/
noncomputable def neglected (p M : ℕ) (c g : ℕ → ℝ) : ℝ :=
  ∑' k, if 2 * k + p ≤ M then 0 else |c (2 * k + p) - g (2 * k + p)|

end SD.Spec
