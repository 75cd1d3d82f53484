import Verif.Spec.System
import Verif.Spec.Placement

/-!
# Specification of feeding dumbbells from below
-/

set_option autoImplicit false

namespace SD.Spec

/-- The beads of the dumbbells: all second beads, then all first beads. -/
noncomputable def dumbBeads (P : PosData) : List (Fin 3 → ℝ) :=
  ((List.range P.Nd).map fun d => centre P (P.Ns + P.Nd + d)) ++ (List.range P.Nd).map fun d => centre P (P.Ns + d)

/-- `h` is the height of the highest of some points. -/
def Highest (h : ℝ) (l : List (Fin 3 → ℝ)) : Prop := (∃ p ∈ l, p 2 = h) ∧ ∀ p ∈ l, p 2 ≤ h

/-- `h` is the height of the lowest of some points. -/
def Lowest (h : ℝ) (l : List (Fin 3 → ℝ)) : Prop := (∃ p ∈ l, p 2 = h) ∧ ∀ p ∈ l, h ≤ p 2

/-- A way to sort points by height. -/
def SortsByHeight (sort : List (Fin 3 → ℝ) → List (Fin 3 → ℝ)) : Prop :=
  ∀ l, (sort l).Perm l ∧ (sort l).Pairwise fun p q => p 2 ≤ q 2

open Classical in
/-- The beads `new` of a suspension `P` that was fed from the suspension `F`: those beads stay that are not higher above
sphere `r` than half the height of the suspension. Below them come, as many as were taken away, the lowest beads of `F`,
moved down so that the highest of them is level with the lowest bead there was, without those that touch a bead that
stayed. If they are too few, some of the beads taken away come back. -/
structure Fed (P F : PosData) (r : ℕ) (new : List (Fin 3 → ℝ)) : Prop where
  count : new.length = 2 * P.Nd
  parts : ∃ top bottom h low rest back, Highest top (dumbBeads P) ∧ Lowest bottom (dumbBeads P) ∧
    (low ++ rest).Perm (dumbBeads F) ∧ (∀ x ∈ low, ∀ y ∈ rest, x 2 ≤ y 2) ∧ Highest h low ∧
    let stays := fun p : Fin 3 → ℝ => p 2 - centre P r 2 ≤ (top - bottom) / 2
    let kept := (dumbBeads P).filter fun p => decide (stays p)
    let gone := (dumbBeads P).filter fun p => decide ¬ stays p
    low.length = min gone.length (2 * F.Nd) ∧ back <+: gone ∧
    new = kept ++ ((low.map fun p => ![p 0, p 1, p 2 - h + bottom]).filter fun p =>
      decide (∀ q ∈ kept, 2 * P.dumbSize 0 < gap p q)) ++ back

end SD.Spec
