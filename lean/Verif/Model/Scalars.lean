import Verif.Model.R2B

/-!
# `find_resistance_scalars/subtract_R2Binfinity_from_scalars.py`

The text output is not modelled.
-/

set_option autoImplicit false

namespace SD

/-- The two spheres on the first axis: `subtract_R2Binfinity_from_scalars.py` lines 36-45. `a` is
`sphere_sizes[0]`, which is 1 in the script. -/
noncomputable def pairPosdata (a lam s_dash : ℝ) : PosData where
  Ns := 2
  Nd := 0
  sphereSize := fun i => if i = 0 then a else a * lam
  spherePos := fun i => if i = 0 then ![0, 0, 0] else ![s_dash * (a + a * lam) * 0.5, 0, 0]
  dumbSize := fun _ => 0
  dumbPos := fun _ _ => 0
  dumbDx := fun _ _ => 0

/-- The scalars `XA0`, `XA1`, …, `ZM1` read off a two-sphere resistance matrix:
`subtract_R2Binfinity_from_scalars.py` lines 49-80. The first number is the row of the table (`XA` is 0,
`ZM` is 10), the second the 0 or 1 of the name. -/
noncomputable def extractScalar (Rinf : NDMat) (a1 : ℝ) (k g : ℕ) : ℝ :=
  let scale_A := 6 * Real.pi * a1
  let scale_B := 4 * Real.pi * a1 ^ 2
  let scale_C := 8 * Real.pi * a1 ^ 3
  let scale_G := 4 * Real.pi * a1 ^ 2
  let scale_H := 8 * Real.pi * a1 ^ 3
  let scale_M := 20 / 3 * Real.pi * a1 ^ 3
  let R := (Real.sqrt 3 + 3) / 6
  let S := Real.sqrt 2
  match k, g with
  | 0, 0 => Rinf.get 0 0 / scale_A
  | 0, 1 => Rinf.get 0 3 / scale_A
  | 1, 0 => Rinf.get 1 1 / scale_A
  | 1, 1 => Rinf.get 1 4 / scale_A
  | 2, 0 => Rinf.get 2 7 / scale_B
  | 2, 1 => Rinf.get 5 7 / scale_B
  | 3, 0 => Rinf.get 6 6 / scale_C
  | 3, 1 => Rinf.get 6 9 / scale_C
  | 4, 0 => Rinf.get 7 7 / scale_C
  | 4, 1 => Rinf.get 7 10 / scale_C
  | 5, 0 => Rinf.get 0 12 / R / scale_G
  | 5, 1 => Rinf.get 3 12 / R / scale_G
  | 6, 0 => Rinf.get 1 13 / S / scale_G
  | 6, 1 => Rinf.get 4 13 / S / scale_G
  | 7, 0 => Rinf.get 7 15 / (-S) / scale_H
  | 7, 1 => Rinf.get 10 15 / (-S) / scale_H
  | 8, 0 => Rinf.get 16 16 / scale_M - 4 * Rinf.get 14 12 / scale_M
  | 8, 1 => Rinf.get 16 21 / scale_M - 4 * Rinf.get 14 17 / scale_M
  | 9, 0 => Rinf.get 13 13 / scale_M
  | 9, 1 => Rinf.get 13 18 / scale_M
  | 10, 0 => Rinf.get 16 16 / scale_M
  | 10, 1 => Rinf.get 16 21 / scale_M
  | _, _ => 0

/-- `XYZd_raw[k, g, n, l]`: `subtract_R2Binfinity_from_scalars.py` lines 82-103; `Rinf n l` is `Rinfinity` for
the cell. -/
noncomputable def subtractCells (T : ScalarTable) (Rinf : ℕ → ℕ → NDMat) : ScalarTable :=
  ⟨T.sDash, T.lam, fun k g n l => T.raw k g n l - extractScalar (Rinf n l) 1 k g⟩

/-- The loop of the script: `subtract_R2Binfinity_from_scalars.py` lines 34-103. `none` is a singular far-field
matrix (`LinAlgError`). The sizes are `[1, lam]`. -/
noncomputable def subtractR2Binfinity (T : ScalarTable) : Option ScalarTable := do
  let cells ← T.lam.mapM fun lam => T.sDash.mapM fun s_dash =>
    (generate_Minfinity (pairPosdata 1 lam s_dash) 1 true).inv
  some (subtractCells T fun n l => (cells.getD l []).getD n (NDMat.zeros 22 22))

end SD
