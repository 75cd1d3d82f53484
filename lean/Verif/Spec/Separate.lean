import Verif.Spec.System

/-!
# Specification: beads that keep apart
-/

set_option autoImplicit false

namespace SD.Spec

/-- No two beads are closer than 2.001 average radii, the distance below which the code replaces their separation. -/
def Separate (P : PosData) : Prop :=
  ∀ x < beads P, ∀ y < beads P, x ≠ y →
    2.001 * ((radius P x + radius P y) / 2) ≤ len (fun i => centre P x i - centre P y i)

end SD.Spec
