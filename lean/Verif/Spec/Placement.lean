import Verif.Spec.FarField

/-!
# Specification of a valid placement
-/

set_option autoImplicit false

namespace SD.Spec

/-- Distance between two points. -/
noncomputable def gap (p q : Fin 3 → ℝ) : ℝ := len fun c => p c - q c

/-- Two balls do not overlap (they may touch). -/
def Apart (p : Fin 3 → ℝ) (a : ℝ) (q : Fin 3 → ℝ) (b : ℝ) : Prop := a + b ≤ gap p q

/-- A point is in the closed box with the given corners. -/
def InBox (bl tr p : Fin 3 → ℝ) : Prop := ∀ c, bl c ≤ p c ∧ p c ≤ tr c

/-- A stream of numbers such as `np.random.rand` gives. -/
def Stream (w : ℕ → ℝ) : Prop := ∀ k, 0 ≤ w k ∧ w k < 1

/-- The two beads of a dumbbell given by its centre and the vector from one bead to the other. -/
noncomputable def beadOf (d : (Fin 3 → ℝ) × (Fin 3 → ℝ)) (second : Bool) : Fin 3 → ℝ := fun c =>
  if second then d.1 c + d.2 c / 2 else d.1 c - d.2 c / 2

end SD.Spec
