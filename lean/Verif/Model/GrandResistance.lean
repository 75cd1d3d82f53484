import Verif.Model.Minfinity
import Verif.Model.R2B

/-!
# `functions/generate_grand_resistance_matrix.py`

The debugging output for `printout > 1` and the timings are not modelled.
-/

set_option autoImplicit false

namespace SD

/-- The list given to `np.diag`: `functions/generate_grand_resistance_matrix.py` lines 63-68. -/
noncomputable def dragDiagonal (P : PosData) : List ℝ :=
  ((List.range (3 * P.Ns)).map fun i => P.sphereSize (i / 3))
    ++ ((List.range (3 * P.Ns)).map fun i => 1 / 0.75 * P.sphereSize (i / 3) ^ 3)
    ++ ((List.range (5 * P.Ns)).map fun i => 1 / 0.9 * P.sphereSize (i / 5) ^ 3)
    ++ ((List.range (3 * P.Nd)).map fun i => 2 * P.dumbSize (i / 3))
    ++ ((List.range (3 * P.Nd)).map fun i => 2 * P.dumbSize (i / 3))

/-- `np.diag(l)`: `functions/generate_grand_resistance_matrix.py` line 63. -/
noncomputable def npDiag (l : List ℝ) : NDMat :=
  ⟨l.length, l.length, fun i j => if i = j then l.getD i 0 else 0⟩

/-- `generate_grand_resistance_matrix`: `functions/generate_grand_resistance_matrix.py` lines 13-111.
Returns the grand resistance matrix and `Minfinity_inverse`. `last` is
`last_generated_Minfinity_inverse`. `none` is an exception: a singular far-field matrix or a size ratio
that is not in the table. Simplification: the in-place addition of line 90 changes the near-field matrix
only, which is not used afterwards, so it is modelled as an addition. -/
noncomputable def generate_grand_resistance_matrix (T : ScalarTable) (P : PosData) (last : NDMat)
    (regenerate_Minfinity : Bool) (cutoff_factor : ℝ) (use_drag_Minfinity use_Minfinity_only : Bool)
    (mu : ℝ) (bb : Bool) : Option (NDMat × NDMat) := do
  let Minfinity_inverse ←
    (if use_drag_Minfinity = false then
      if regenerate_Minfinity then (generate_Minfinity P mu bb).inv
      else some last
    else some (NDMat.smul mu (npDiag (dragDiagonal P))) : Option NDMat)
  if use_Minfinity_only = false then
    let R2Bexact ← generate_R2Bexact T P cutoff_factor mu bb
    some (R2Bexact.add Minfinity_inverse, Minfinity_inverse)
  else some (Minfinity_inverse, Minfinity_inverse)

end SD
