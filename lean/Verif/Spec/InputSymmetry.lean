import Verif.Spec.ShippedInputs
import Verif.Spec.Moved

/-!
# Specification: the rigid motions that leave the project's own inputs alone
-/

set_option autoImplicit false

namespace SD.Spec

/-- The shear flow `u = (z, 0, 0)`. -/
def shearField (x : Fin 3 → ℝ) : Fin 3 → ℝ := ![x 2, 0, 0]

/-- The motion `x ↦ Q x + t` keeps what input `n` describes: gravity its direction; the oscillating and the constant
shear the flow and its centre; the repulsion nothing; the pull to the left and right the direction of `x`. With the
form `fts` the origin is kept as well. -/
def Keeps (n : ℕ) (form : InputForm) (Q : Fin 3 → Fin 3 → ℝ) (t : Fin 3 → ℝ) : Prop :=
  match n with
  | 1 => turnVec Q ![0, 0, 1] = ![0, 0, 1] ∧ (form = .fts → t = 0)
  | 3 => (∀ x, turnVec Q (shearField x) = shearField (turnVec Q x)) ∧
      movePoint Q t ![2.25, 0, 2.25] = ![2.25, 0, 2.25]
  | 4 => form = .fts → t = 0
  | 5 => turnVec Q ![1, 0, 0] = ![1, 0, 0] ∧ (form = .fts → t = 0)
  | 6 => turnVec Q ![1, 0, 0] = ![1, 0, 0] ∧ (form = .fts → t = 0)
  | 7 => (∀ x, turnVec Q (shearField x) = shearField (turnVec Q x)) ∧ t = 0
  | _ => False

end SD.Spec
