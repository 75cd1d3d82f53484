import Verif.Spec.Isotropy
import Verif.Spec.Dumbbell

/-!
# Specification of changes of units, axes and numbering

Grand vectors are compared row by row. The rows of dumbbell `d` (`d < Nd`) are those of the beads `Ns + d` and
`Ns + Nd + d`: in bead coordinates they hold the vectors of its first and second bead, in dumbbell coordinates the
sum (or mean) and the difference (or half the difference) of the two.
-/

set_option autoImplicit false

namespace SD.Spec

/-- All lengths multiplied by `k`. -/
def rescaled (P : PosData) (k : ℝ) : PosData :=
  { P with
    sphereSize := fun i => k * P.sphereSize i
    spherePos := fun i j => k * P.spherePos i j
    dumbSize := fun i => k * P.dumbSize i
    dumbPos := fun i j => k * P.dumbPos i j
    dumbDx := fun i j => k * P.dumbDx i j }

/-- Power of the length in the unit of a load: forces have none, torques and stresslets one more. -/
def lengths : Comp → ℕ
  | .f _ => 0
  | .t _ => 1
  | .s _ => 1

/-- `f'` are the loads `f` when lengths are multiplied by `k` and forces kept. -/
def LoadsRescaled (Ns Nd : ℕ) (k : ℝ) (f f' : ℕ → ℝ) : Prop :=
  ∀ u c, HasRow Ns Nd u c → f' (row Ns u c) = k ^ lengths c * f (row Ns u c)

/-- `v'` are the motions `v` when lengths are multiplied by `k` and forces and the viscosity are kept (so that times
are multiplied by `k²`): velocities are divided by `k`, angular velocities and rates of strain by `k²`. -/
def MotionsRescaled (Ns Nd : ℕ) (k : ℝ) (v v' : ℕ → ℝ) : Prop :=
  ∀ u c, HasRow Ns Nd u c → k ^ (1 + lengths c) * v' (row Ns u c) = v (row Ns u c)

/-- `v'` is `v` with every vector, axial vector and matrix turned by `Q`. -/
def GrandTurned (Ns Nd : ℕ) (Q : Fin 3 → Fin 3 → ℝ) (v v' : ℕ → ℝ) : Prop :=
  ∀ u c, HasRow Ns Nd u c → v' (row Ns u c) = turnComp Q c fun d => v (row Ns u d)

/-- `v'` is `v` with spheres renumbered by `σ` and dumbbells by `τ`. -/
def GrandRenumbered (Ns Nd : ℕ) (σ τ : ℕ → ℕ) (v v' : ℕ → ℝ) : Prop :=
  ∀ u c, HasRow Ns Nd u c → v' (row Ns u c) = v (row Ns (beadMap Ns Nd σ τ u) c)

end SD.Spec
