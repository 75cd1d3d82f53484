import Verif.Spec.Motion
import Verif.Spec.System
import Verif.Spec.NearField

/-!
# Specification of neighbours in a periodic box
-/

set_option autoImplicit false

namespace SD.Spec

open Classical in
/-- The image of `v` in the cell centred on the origin: the point of the cell that differs from `v` by box
vectors. -/
noncomputable def cellImage (B : Fin 3 → Fin 3 → ℝ) (v : Fin 3 → ℝ) : Fin 3 → ℝ :=
  if h : ∃ y, InCell B y ∧ InLattice B (fun m => v m - y m) then h.choose else 0

/-- The displacement from particle `x` to the image of particle `y` in the cell centred on `x`. (On the boundary
of the cell, where there are several images, the one for the smaller number counts for both.) -/
noncomputable def cellStep (B : Fin 3 → Fin 3 → ℝ) (centre : ℕ → Fin 3 → ℝ) (x y : ℕ) : Fin 3 → ℝ :=
  if x < y then cellImage B (fun m => centre y m - centre x m)
  else fun m => -cellImage B (fun m => centre x m - centre y m) m

open Classical in
/-- The neighbours in a periodic box: `y` is a neighbour of `x` if its image in the cell centred on `x` is within
`2 k`, as it is and in units of the mean radius. Direction and scaled distance are those of that image. -/
noncomputable def cellLink (B : Fin 3 → Fin 3 → ℝ) (k : ℝ) (centre : ℕ → Fin 3 → ℝ) (radius : ℕ → ℝ) (x y : ℕ) :
    Option ((Fin 3 → ℝ) × ℝ) :=
  let r := cellStep B centre x y
  let s := len r / ((radius x + radius y) / 2)
  if len r ≤ 2 * k ∧ s ≤ 2 * k then some (fun i => r i / len r, s) else none

/-- Positive radii, and no two beads at the same place of the periodic array. -/
structure CellSensible (B : Fin 3 → Fin 3 → ℝ) (P : PosData) : Prop where
  radius_pos : ∀ x < beads P, 0 < radius P x
  apart : ∀ x < beads P, ∀ y < beads P, x ≠ y → ¬ InLattice B fun m => centre P y m - centre P x m

/-- Every size ratio that is looked up in the box is in the table, within the tolerance of the lookup. -/
def CellTabulated (B : Fin 3 → Fin 3 → ℝ) (lams : List ℝ) (P : PosData) (k : ℝ) : Prop :=
  ∀ x < beads P, ∀ y < beads P, (x = y ∨ cellLink B k (centre P) (radius P) x y ≠ none) →
    ∃ t ∈ lams, |t - radius P y / radius P x| ≤ 1 / 10 ^ 8 + 1 / 10 ^ 5 * |radius P y / radius P x|

/-- The same particles up to box vectors: every bead of `P'` differs from the same bead of `P` by box vectors
and a common displacement `t`. -/
structure SameInBox (B : Fin 3 → Fin 3 → ℝ) (t : Fin 3 → ℝ) (P P' : PosData) : Prop where
  spheres : P'.Ns = P.Ns
  dumbbells : P'.Nd = P.Nd
  sphereSize : P'.sphereSize = P.sphereSize
  dumbSize : P'.dumbSize = P.dumbSize
  centres : ∀ x < beads P, InLattice B fun m => centre P' x m - centre P x m - t m

end SD.Spec
