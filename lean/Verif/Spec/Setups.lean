import Verif.Spec.Placement
import Verif.Spec.System

/-!
# Specification: well spread particles and lattices
-/

set_option autoImplicit false

namespace SD.Spec

/-- Any two beads are at least `κ` mean radii apart (`κ = 2`: no overlap). -/
def Spread (κ : ℝ) (P : PosData) : Prop :=
  ∀ x < beads P, ∀ y < beads P, x ≠ y → κ * ((radius P x + radius P y) / 2) ≤ gap (centre P x) (centre P y)

/-- The cubic lattice of the given spacing that contains the point `o`. -/
def cubicLattice (h : ℝ) (o : Fin 3 → ℝ) : Set (Fin 3 → ℝ) := {x | ∃ m : Fin 3 → ℤ, ∀ c, x c = o c + m c * h}

/-- The numbers of spheres and of dumbbells of the listed setups. -/
def listedCounts : ℕ → ℕ × ℕ
  | 1 => (15, 0)
  | 2 => (3, 0)
  | 3 => (8, 0)
  | 4 => (2, 2)
  | 5 => (41, 0)
  | 6 => (90, 200)
  | 7 => (99, 0)
  | _ => (0, 0)

end SD.Spec
