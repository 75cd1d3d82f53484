import Verif.Spec.ShippedInputs
import Verif.Spec.Repulsion
import Verif.Spec.Solve

/-!
# Specification: what the project's own inputs do to the beads
-/

set_option autoImplicit false

namespace SD.Spec

/-- The prescribed loads amount to the force `F x` on each bead `x`, and to no torque: spheres carry their force,
dumbbells the sum of the forces on their two beads and the second minus the first. -/
structure Carries (P : PosData) (inp : Inputs) (F : ℕ → Fin 3 → ℝ) : Prop where
  Fa : inp.Fa = (List.range P.Ns).map fun i => num3 (F i)
  Ta : inp.Ta = (List.range P.Ns).map fun _ => num3 0
  Fb : inp.Fb = (List.range P.Nd).map fun i => num3 fun k => F (P.Ns + i) k + F (P.Ns + P.Nd + i) k
  DFb : inp.DFb = (List.range P.Nd).map fun i => num3 fun k => F (P.Ns + P.Nd + i) k - F (P.Ns + i) k

/-- The weight of the spheres; dumbbells have none. -/
def weight (P : PosData) (x : ℕ) : Fin 3 → ℝ := if x < P.Ns then ![0, 0, -1] else 0

/-- The bead at the other end of the spring of bead `x`, for the beads of dumbbells. -/
def otherEnd (P : PosData) (x : ℕ) : ℕ := if x < P.Ns + P.Nd then x + P.Nd else x - P.Nd

/-- Hooke's law for the beads of dumbbells: a spring of constant one half and length two pulls each bead towards the
other end. -/
noncomputable def hooke (P : PosData) (x : ℕ) : Fin 3 → ℝ :=
  if x < P.Ns then 0
  else
    let d := fun k => centre P (otherEnd P x) k - centre P x k
    fun k => 1 / 2 * (len d - 2) * (d k / len d)

/-- Rigid rotation with half the vorticity of the shear flow `(z, 0, 0)`. -/
noncomputable def swirl (x : Fin 3 → ℝ) : Fin 3 → ℝ := ![x 2 / 2, 0, -(x 0 / 2)]

/-- One explicit step of length `dt` along the rotation: rotation and enlargement in the plane of the flow. -/
noncomputable def swirled (dt : ℝ) (x : Fin 3 → ℝ) : Fin 3 → ℝ := fun k => x k + dt * swirl x k

/-- Squared distance from the axis of the rotation. -/
def offAxis (x : Fin 3 → ℝ) : ℝ := x 0 ^ 2 + x 2 ^ 2

/-- Shear flow `(z, 0, 0)` for the time `t`. -/
def sheared (t : ℝ) (x : Fin 3 → ℝ) : Fin 3 → ℝ := ![x 0 + t * x 2, x 1, x 2]

end SD.Spec
