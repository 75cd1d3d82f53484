import Verif.Model.Scalars
import Verif.Model.GrandResistance
import Verif.Model.Midfield
import Verif.Model.Nearfield

/-!
# The scripts that make the scalar tables

`find_resistance_scalars/generate_scalars_midfield.py` (the loops), `combine_scalars.py` and
`subtract_R2Binfinitydrag_from_scalars.py`. The human-readable copies are not modelled. The distances that
`combine_scalars.py` saves are written with nine digits; this rounding is not modelled.
-/

set_option autoImplicit false

namespace SD

open Classical in
/-- Column `lam_wr_index` of `XYZ_general_table` at one distance, for the size ratio `lam`:
`find_resistance_scalars/generate_scalars_midfield.py` lines 408-442. `tab i` is the column of `XYZ_table` at this
distance with number `i`. `np.argwhere(lam_range == x)[0, 0]` is the first place of `x`; it exists in exact
arithmetic, because every ratio that is not in `lam_range` is the reciprocal of one that is. -/
noncomputable def midfieldCell (lam_range : List ℝ) (tab : ℕ → ℕ → ℝ) (lam : ℝ) (k g : ℕ) : ℝ :=
  if lam ∈ lam_range then generalColumn (tab (lam_range.idxOf lam)) k g
  else reciprocalColumn lam (tab (lam_range.idxOf (1 / lam))) k g

/-- `scalars_general_resistance_midfield.npy` together with its distances and ratios:
`find_resistance_scalars/generate_scalars_midfield.py` lines 350-442. `run lam s_dash` stands for the Fortran
program. `none` is a `LinAlgError`. -/
noncomputable def midfield_table (run : ℝ → ℝ → FCase → ℕ → ℝ) (s_dash_range lam_range : List ℝ) :
    Option ScalarTable := do
  let tab ← lam_range.mapM fun lam => s_dash_range.mapM fun s_dash => XYZ_column (run lam s_dash)
  some
    { sDash := s_dash_range
      lam := Nearfield.with_reciprocals lam_range
      raw := fun k g n l => midfieldCell lam_range (fun i => (tab.getD i []).getD n fun _ => 0)
        ((Nearfield.with_reciprocals lam_range).getD l 0) k g }

/-- The table that `find_resistance_scalars/combine_scalars.py` leaves behind, lines 27-55: the sorted distances in
`values_of_s_dash.txt` and the joined arrays in `scalars_general_resistance.npy`. `none` is the `ValueError` of
`np.concatenate` when the numbers of ratios differ. After writing these two files the script stops with an
`AttributeError` in line 67, because `sorted` returns a list, which has no `shape`; the human-readable copy and the
message of success are never written. -/
noncomputable def combine_scalars (near mid : ScalarTable) : Option ScalarTable :=
  if near.lam.length = mid.lam.length then
    some
      { sDash := (near.sDash ++ mid.sDash).mergeSort fun a b => decide (a ≤ b)
        lam := near.lam
        raw := fun k g n l =>
          if n < near.sDash.length then near.raw k g n l else mid.raw k g (n - near.sDash.length) l }
  else none

/-- `Rinfinity` for spheres of radius `a1` and `a2`:
`find_resistance_scalars/subtract_R2Binfinitydrag_from_scalars.py` lines 54-59. -/
noncomputable def dragRinfinity (a1 a2 : ℝ) : NDMat :=
  NDMat.smul (6 * Real.pi) (npDiag
    [a1, a1, a1, a2, a2, a2,
     a1 ^ 3 / 0.75, a1 ^ 3 / 0.75, a1 ^ 3 / 0.75,
     a2 ^ 3 / 0.75, a2 ^ 3 / 0.75, a2 ^ 3 / 0.75,
     a1 ^ 3 / 0.9, a1 ^ 3 / 0.9, a1 ^ 3 / 0.9, a1 ^ 3 / 0.9, a1 ^ 3 / 0.9,
     a2 ^ 3 / 0.9, a2 ^ 3 / 0.9, a2 ^ 3 / 0.9, a2 ^ 3 / 0.9, a2 ^ 3 / 0.9])

/-- `scalars_general_resistance_d_drag.npy`:
`find_resistance_scalars/subtract_R2Binfinitydrag_from_scalars.py` lines 38-116. -/
noncomputable def subtractR2Binfinitydrag (T : ScalarTable) : ScalarTable :=
  subtractCells T fun _ l => dragRinfinity 1 (T.lam.getD l 0)

end SD
