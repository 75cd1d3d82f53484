import Verif.Spec.System
import Verif.Spec.Dumbbell

/-!
# Specification of the drag approximation and of Stokes' laws
-/

set_option autoImplicit false

namespace SD.Spec

/-- The diagonal of the drag approximation per unit viscosity, by grand vector row: forces, torques and
stresslets of the spheres, then forces and force differences of the dumbbells. -/
noncomputable def drag (P : PosData) (i : ℕ) : ℝ :=
  if i < 3 * P.Ns then P.sphereSize (i / 3)
  else if i < 6 * P.Ns then 4 / 3 * P.sphereSize ((i - 3 * P.Ns) / 3) ^ 3
  else if i < 11 * P.Ns then 10 / 9 * P.sphereSize ((i - 6 * P.Ns) / 5) ^ 3
  else if i < 11 * P.Ns + 3 * P.Nd then 2 * P.dumbSize ((i - 11 * P.Ns) / 3)
  else 2 * P.dumbSize ((i - (11 * P.Ns + 3 * P.Nd)) / 3)

/-- Stokes' laws for one sphere: load per unit motion. -/
noncomputable def stokes (mu a : ℝ) : Comp → ℝ
  | .f _ => 6 * Real.pi * mu * a
  | .t _ => 8 * Real.pi * mu * a ^ 3
  | .s _ => 20 / 3 * Real.pi * mu * a ^ 3

end SD.Spec
