import Verif.Spec.Moved
import Verif.Spec.NearField
import Mathlib.Topology.Instances.Real.Lemmas

/-!
# Specification: particles in nearby places
-/

set_option autoImplicit false

namespace SD.Spec

open Filter Topology

/-- The same particles in places that tend to those of `P0`. -/
structure Approaches {β : Type} (F : Filter β) (P : β → PosData) (P0 : PosData) : Prop where
  Ns : ∀ t, (P t).Ns = P0.Ns
  Nd : ∀ t, (P t).Nd = P0.Nd
  size : ∀ t, ∀ x < beads P0, radius (P t) x = radius P0 x
  place : ∀ x < beads P0, ∀ k, Tendsto (fun t => centre (P t) x k) F (𝓝 (centre P0 x k))

/-- Two beads are exactly as far apart as near-field interactions reach: `2 k` average radii. -/
def AtRange (k : ℝ) (P : PosData) : Prop :=
  ∃ x < beads P, ∃ y < beads P, x ≠ y ∧
    len (fun i => centre P x i - centre P y i) = 2 * k * ((radius P x + radius P y) / 2)

/-- The distances of a table are in ascending order. -/
def Ascending (l : List ℝ) : Prop := l ≠ [] ∧ l.Pairwise (· < ·)

end SD.Spec
