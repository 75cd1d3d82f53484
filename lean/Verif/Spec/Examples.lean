import Verif.Spec.Progress
import Mathlib.Analysis.SpecialFunctions.Trigonometric.Basic

/-!
# Specification: what the example scripts are about
-/

set_option autoImplicit false

namespace SD.Spec

/-- Spheres of radius `a` in a horizontal row, each `δ` from the next, and nothing else. -/
structure Row (P : PosData) (o : Vec3) (a δ : ℝ) : Prop where
  Ns : 0 < P.Ns
  Nd : P.Nd = 0
  size : ∀ i < P.Ns, P.sphereSize i = a
  place : ∀ i < P.Ns, P.spherePos i = fun k => o k + i * δ * ![1, 0, 0] k

/-- The spheres of `c1` are those of `c` after each has moved down or up with the velocity `w` for the time `h`. -/
def Sunk (c c1 : Config) (h : ℝ) (w : ℕ → ℝ) : Prop :=
  ∀ i < c.P.Ns, c1.P.spherePos i = fun k => c.P.spherePos i k + h * ![0, 0, w i] k

/-- The force -1 on a unit sphere in units of the Stokes drag on it when it moves with the velocity `U`; `none` is
infinite. -/
noncomputable def stokesRatio (U : ℝ) : Option ℝ := if U = 0 then none else some (-1 / (6 * Real.pi * U))

end SD.Spec
