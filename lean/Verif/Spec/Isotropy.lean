import Verif.Spec.System

/-!
# Specification of rotations (and reflections) of a configuration
-/

set_option autoImplicit false

namespace SD.Spec

/-- An orthogonal matrix: a rotation or a reflection. -/
def Orthogonal (Q : Fin 3 → Fin 3 → ℝ) : Prop := ∀ i j, ∑ k, Q i k * Q j k = dlt i j

/-- Determinant. -/
def det3 (Q : Fin 3 → Fin 3 → ℝ) : ℝ :=
  Q 0 0 * (Q 1 1 * Q 2 2 - Q 1 2 * Q 2 1) - Q 0 1 * (Q 1 0 * Q 2 2 - Q 1 2 * Q 2 0)
    + Q 0 2 * (Q 1 0 * Q 2 1 - Q 1 1 * Q 2 0)

/-- The vector `Q r`. -/
def turnVec (Q : Fin 3 → Fin 3 → ℝ) (r : Fin 3 → ℝ) : Fin 3 → ℝ := fun i => ∑ a, Q i a * r a

/-- The matrix `Q S Qᵀ`. -/
def turnMat (Q S : Fin 3 → Fin 3 → ℝ) : Fin 3 → Fin 3 → ℝ := fun i j => ∑ a, ∑ b, Q i a * Q j b * S a b

/-- Component `c` of the turned load (or motion) of a particle with the components `F`: forces and
velocities are vectors, torques and angular velocities are axial vectors, stresslets and rates of strain
are matrices. -/
noncomputable def turnComp (Q : Fin 3 → Fin 3 → ℝ) (c : Comp) (F : Comp → ℝ) : ℝ :=
  match c with
  | .f i => ∑ a, Q i a * F (.f a)
  | .t i => ∑ a, det3 Q * Q i a * F (.t a)
  | .s p => ∑ q, (∑ i, ∑ j, basis5 p i j * turnMat Q (basis5 q) i j) * F (.s q)

/-- The configuration turned about the origin. -/
def turned (P : PosData) (Q : Fin 3 → Fin 3 → ℝ) : PosData :=
  { P with
    spherePos := fun i => turnVec Q (P.spherePos i)
    dumbPos := fun i => turnVec Q (P.dumbPos i)
    dumbDx := fun i => turnVec Q (P.dumbDx i) }

end SD.Spec
