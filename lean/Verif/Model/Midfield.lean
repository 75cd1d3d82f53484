import Verif.Model.R2B
import Mathlib.LinearAlgebra.Matrix.NonsingularInverse
import Mathlib.Data.Matrix.Mul

/-!
# `find_resistance_scalars/generate_scalars_midfield.py`

The Fortran program is a parameter: its printed numbers are taken as real numbers. Timing and the written
files are not modelled.
-/

set_option autoImplicit false

namespace SD

/-- The 44 scalars of a pair of spheres, `[x11a, x12a, x21a, x22a, y11a, …, z22m]`:
`generate_scalars_midfield.py` lines 194-204 and 228-238. Entry `α β` of a field is the scalar with these two
numbers, counted from 0. -/
@[ext] structure PairScalars where
  XA : Fin 2 → Fin 2 → ℝ
  YA : Fin 2 → Fin 2 → ℝ
  YB : Fin 2 → Fin 2 → ℝ
  XC : Fin 2 → Fin 2 → ℝ
  YC : Fin 2 → Fin 2 → ℝ
  XG : Fin 2 → Fin 2 → ℝ
  YG : Fin 2 → Fin 2 → ℝ
  YH : Fin 2 → Fin 2 → ℝ
  XM : Fin 2 → Fin 2 → ℝ
  YM : Fin 2 → Fin 2 → ℝ
  ZM : Fin 2 → Fin 2 → ℝ

/-- The list of the four entries of a field, in the order of `generate_scalars_midfield.py` lines 194-204. -/
def four (m : Fin 2 → Fin 2 → ℝ) : List ℝ := [m 0 0, m 0 1, m 1 0, m 1 1]

/-- The list itself: `generate_scalars_midfield.py` lines 194-204 and 320-330. -/
def PairScalars.toList (z : PairScalars) : List ℝ :=
  four z.XA ++ four z.YA ++ four z.YB ++ four z.XC ++ four z.YC ++ four z.XG ++ four z.YG ++ four z.YH
    ++ four z.XM ++ four z.YM ++ four z.ZM

/-- The cases the Fortran program is asked: `generate_scalars_midfield.py` lines 91-104. -/
inductive FCase
  | F11 | F12 | F21 | F22 | T11 | T12 | T21 | T22 | E11 | E13 | E14 | E21 | E23 | E24
deriving DecidableEq

/-- `rp`: `generate_scalars_midfield.py` line 108. -/
noncomputable def rp : ℝ := 0.5 * (1 + Real.sqrt 3)
/-- `rm`: `generate_scalars_midfield.py` line 109. -/
noncomputable def rm : ℝ := 0.5 * (-1 + Real.sqrt 3)
/-- `r2`: `generate_scalars_midfield.py` line 110. -/
noncomputable def r2 : ℝ := Real.sqrt 2

/-- The matrix `reorder`: `generate_scalars_midfield.py` lines 111-133. -/
noncomputable def reorder : List (List ℝ) := [
  [1, 0, 0, 0, 0, 0, 0, 0, 0, 0, 0, 0, 0, 0, 0, 0, 0, 0, 0, 0, 0, 0],
  [0, 1, 0, 0, 0, 0, 0, 0, 0, 0, 0, 0, 0, 0, 0, 0, 0, 0, 0, 0, 0, 0],
  [0, 0, 1, 0, 0, 0, 0, 0, 0, 0, 0, 0, 0, 0, 0, 0, 0, 0, 0, 0, 0, 0],
  [0, 0, 0, 0, 0, 0, 0, 0, 0, 0, 0, 1, 0, 0, 0, 0, 0, 0, 0, 0, 0, 0],
  [0, 0, 0, 0, 0, 0, 0, 0, 0, 0, 0, 0, 1, 0, 0, 0, 0, 0, 0, 0, 0, 0],
  [0, 0, 0, 0, 0, 0, 0, 0, 0, 0, 0, 0, 0, 1, 0, 0, 0, 0, 0, 0, 0, 0],
  [0, 0, 0, 1, 0, 0, 0, 0, 0, 0, 0, 0, 0, 0, 0, 0, 0, 0, 0, 0, 0, 0],
  [0, 0, 0, 0, 1, 0, 0, 0, 0, 0, 0, 0, 0, 0, 0, 0, 0, 0, 0, 0, 0, 0],
  [0, 0, 0, 0, 0, 1, 0, 0, 0, 0, 0, 0, 0, 0, 0, 0, 0, 0, 0, 0, 0, 0],
  [0, 0, 0, 0, 0, 0, 0, 0, 0, 0, 0, 0, 0, 0, 1, 0, 0, 0, 0, 0, 0, 0],
  [0, 0, 0, 0, 0, 0, 0, 0, 0, 0, 0, 0, 0, 0, 0, 1, 0, 0, 0, 0, 0, 0],
  [0, 0, 0, 0, 0, 0, 0, 0, 0, 0, 0, 0, 0, 0, 0, 0, 1, 0, 0, 0, 0, 0],
  [0, 0, 0, 0, 0, 0, rp, rm, 0, 0, 0, 0, 0, 0, 0, 0, 0, 0, 0, 0, 0, 0],
  [0, 0, 0, 0, 0, 0, 0, 0, r2, 0, 0, 0, 0, 0, 0, 0, 0, 0, 0, 0, 0, 0],
  [0, 0, 0, 0, 0, 0, rm, rp, 0, 0, 0, 0, 0, 0, 0, 0, 0, 0, 0, 0, 0, 0],
  [0, 0, 0, 0, 0, 0, 0, 0, 0, r2, 0, 0, 0, 0, 0, 0, 0, 0, 0, 0, 0, 0],
  [0, 0, 0, 0, 0, 0, 0, 0, 0, 0, r2, 0, 0, 0, 0, 0, 0, 0, 0, 0, 0, 0],
  [0, 0, 0, 0, 0, 0, 0, 0, 0, 0, 0, 0, 0, 0, 0, 0, 0, rp, rm, 0, 0, 0],
  [0, 0, 0, 0, 0, 0, 0, 0, 0, 0, 0, 0, 0, 0, 0, 0, 0, 0, 0, r2, 0, 0],
  [0, 0, 0, 0, 0, 0, 0, 0, 0, 0, 0, 0, 0, 0, 0, 0, 0, rm, rp, 0, 0, 0],
  [0, 0, 0, 0, 0, 0, 0, 0, 0, 0, 0, 0, 0, 0, 0, 0, 0, 0, 0, 0, r2, 0],
  [0, 0, 0, 0, 0, 0, 0, 0, 0, 0, 0, 0, 0, 0, 0, 0, 0, 0, 0, 0, 0, r2]]

/-- A row of `reordered_UOS`: `generate_scalars_midfield.py` line 135. `out` are the 22 numbers the Fortran
program prints for the case. -/
noncomputable def reorderedUOS (out : ℕ → ℝ) (i : ℕ) : ℝ :=
  ∑ c ∈ Finset.range 22, (reorder.getD i []).getD c 0 * out c

/-- The scalars with numbers 11, 12, 21, 22. -/
def quad (a b c d : ℝ) : Fin 2 → Fin 2 → ℝ := ![![a, b], ![c, d]]

/-- `find_dim_kim_mobility_scalars`: `generate_scalars_midfield.py` lines 68-211. `run` stands for
`run_fortran` at the given distance and size ratio. -/
noncomputable def find_dim_kim_mobility_scalars (run : FCase → ℕ → ℝ) : PairScalars :=
  let u := fun c => reorderedUOS (run c)
  { XA := quad (u .F11 0) (u .F21 0) (u .F11 3) (u .F21 3)
    YA := quad (u .F12 1) (u .F22 1) (u .F12 4) (u .F22 4)
    YB := quad (u .F12 8 * -1) (u .F22 8 * -1) (u .F12 11 * -1) (u .F22 11 * -1)
    XC := quad (u .T11 6) (u .T21 6) (u .T11 9) (u .T21 9)
    YC := quad (u .T12 7) (u .T22 7) (u .T12 10) (u .T22 10)
    XG := quad (u .F11 12 / ((3 + Real.sqrt 3) / 6)) (u .F21 12 / ((3 + Real.sqrt 3) / 6))
      (u .F11 17 / ((3 + Real.sqrt 3) / 6)) (u .F21 17 / ((3 + Real.sqrt 3) / 6))
    YG := quad (u .F12 13 / Real.sqrt 2) (u .F22 13 / Real.sqrt 2) (u .F12 18 / Real.sqrt 2)
      (u .F22 18 / Real.sqrt 2)
    YH := quad (u .T12 15 / -Real.sqrt 2) (u .T22 15 / -Real.sqrt 2) (u .T12 20 / -Real.sqrt 2)
      (u .T22 20 / -Real.sqrt 2)
    XM := quad (u .E11 12 / ((3 + Real.sqrt 3) / 4)) (u .E21 12 / ((3 + Real.sqrt 3) / 4))
      (u .E11 17 / ((3 + Real.sqrt 3) / 4)) (u .E21 17 / ((3 + Real.sqrt 3) / 4))
    YM := quad (u .E14 13 / Real.sqrt 2) (u .E24 13 / Real.sqrt 2) (u .E14 18 / Real.sqrt 2)
      (u .E24 18 / Real.sqrt 2)
    ZM := quad (u .E13 16 / Real.sqrt 2) (u .E23 16 / Real.sqrt 2) (u .E13 21 / Real.sqrt 2)
      (u .E23 21 / Real.sqrt 2) }

/-- `np.linalg.inv` of a small matrix, as called in `generate_scalars_midfield.py` lines 255, 256 and 258;
`none` is `LinAlgError`. -/
noncomputable def npInv {n : ℕ} (m : Matrix (Fin n) (Fin n) ℝ) : Option (Matrix (Fin n) (Fin n) ℝ) :=
  open Classical in if m.det = 0 then none else some m⁻¹

/-- `matrix_yabc`: `generate_scalars_midfield.py` lines 245-248. -/
def matrix_yabc (z : PairScalars) : Matrix (Fin 4) (Fin 4) ℝ :=
  !![z.YA 0 0, z.YA 0 1, z.YB 0 0, z.YB 1 0;
     z.YA 0 1, z.YA 1 1, z.YB 0 1, z.YB 1 1;
     z.YB 0 0, z.YB 0 1, z.YC 0 0, z.YC 0 1;
     z.YB 1 0, z.YB 1 1, z.YC 0 1, z.YC 1 1]

/-- `matrix_ygh`: `generate_scalars_midfield.py` lines 249-250. -/
def matrix_ygh (z : PairScalars) : Matrix (Fin 4) (Fin 2) ℝ :=
  !![z.YG 0 0, z.YG 1 0; z.YG 0 1, z.YG 1 1; -z.YH 0 0, -z.YH 1 0; -z.YH 0 1, -z.YH 1 1]

/-- The 2-by-2 arrays of `generate_scalars_midfield.py` lines 240-253 and 298-299. -/
def mat2 (m : Fin 2 → Fin 2 → ℝ) : Matrix (Fin 2) (Fin 2) ℝ := !![m 0 0, m 0 1; m 1 0, m 1 1]

/-- The transposed 2-by-2 arrays `matrix_xgt`, `matrix_ygt`, `matrix_yht`:
`generate_scalars_midfield.py` lines 243, 251, 252. -/
def mat2t (m : Fin 2 → Fin 2 → ℝ) : Matrix (Fin 2) (Fin 2) ℝ := !![m 0 0, m 1 0; m 0 1, m 1 1]

/-- `convert_dim_kim_mobility_to_dim_resistance`: `generate_scalars_midfield.py` lines 214-331. -/
noncomputable def convert_dim_kim_mobility_to_dim_resistance (z : PairScalars) : Option PairScalars := do
  let matrix_XA ← npInv (mat2 z.XA)
  let matrix_XC ← npInv (mat2 z.XC)
  let matrix_XG := mat2 z.XG * matrix_XA
  let matrix_YABC ← npInv (matrix_yabc z)
  let matrix_YGH := matrix_YABC * matrix_ygh z
  let YG := quad (matrix_YGH 0 0) (matrix_YGH 1 0) (matrix_YGH 0 1) (matrix_YGH 1 1)
  let YH := quad (-matrix_YGH 2 0) (-matrix_YGH 3 0) (-matrix_YGH 2 1) (-matrix_YGH 3 1)
  let matrix_XM := mat2 z.XM + (2 / 3 : ℝ) • (matrix_XG * mat2t z.XG)
  let matrix_YM := mat2 z.YM + (2 : ℝ) • (mat2 YG * mat2t z.YG + mat2 YH * mat2t z.YH)
  some
    { XA := matrix_XA
      YA := quad (matrix_YABC 0 0) (matrix_YABC 0 1) (matrix_YABC 1 0) (matrix_YABC 1 1)
      YB := quad (matrix_YABC 0 2) (matrix_YABC 1 2) (matrix_YABC 0 3) (matrix_YABC 1 3)
      XC := matrix_XC
      YC := quad (matrix_YABC 2 2) (matrix_YABC 2 3) (matrix_YABC 3 2) (matrix_YABC 3 3)
      XG := matrix_XG
      YG := YG
      YH := YH
      XM := matrix_XM
      YM := matrix_YM
      ZM := z.ZM }

/-- `nondimensionalise_scalars`: `generate_scalars_midfield.py` lines 334-346, on the list of 44. -/
noncomputable def nondimensionalise_scalars (scalars scales : List ℝ) (i : ℕ) : ℝ :=
  scalars.getD i 0 /
    (if i < 8 then scales.getD 0 0
     else if i < 12 then scales.getD 1 0
     else if i < 20 then scales.getD 2 0
     else if i < 28 then scales.getD 3 0
     else if i < 32 then scales.getD 4 0
     else scales.getD 5 0)

/-- `resistance_scales`: `generate_scalars_midfield.py` line 367. -/
noncomputable def resistance_scales : List ℝ :=
  [6 * Real.pi, 4 * Real.pi, 8 * Real.pi, 4 * Real.pi, 8 * Real.pi, 20 / 3 * Real.pi]

/-- `minus_in_B_and_G_one_line`: `generate_scalars_midfield.py` line 392. -/
def minus_in_B_and_G : List ℝ := [1, 1, -1, 1, 1, -1, -1, 1, 1, 1, 1]

/-- `lam_scales_one_line_r`: `generate_scalars_midfield.py` lines 425-427. -/
def lam_scales_r (lam : ℝ) : List ℝ :=
  [lam, lam, lam ^ 2, lam ^ 3, lam ^ 3, lam ^ 2, lam ^ 2, lam ^ 3, lam ^ 3, lam ^ 3, lam ^ 3]

/-- A column of `XYZ_general_table` whose size ratio is in `lam_range`: `generate_scalars_midfield.py` lines
409-413. `tab` is the column of `XYZ_table` with the same ratio. The row numbers of the code, 0, 4, 8, … and
1, 5, 9, …, are written `4 k` and `4 k + 1`. -/
def generalColumn (tab : ℕ → ℝ) (k g : ℕ) : ℝ :=
  if g = 0 then tab (4 * k) else tab (4 * k + 1)

/-- A column of `XYZ_general_table` whose size ratio `lam` is not in `lam_range`:
`generate_scalars_midfield.py` lines 436-442. `tab` is the column of `XYZ_table` with ratio `1 / lam`. The row
numbers of the code, 3, 7, 11, … and 2, 6, 10, …, are written `4 k + 3` and `4 k + 2`. -/
def reciprocalColumn (lam : ℝ) (tab : ℕ → ℝ) (k g : ℕ) : ℝ :=
  (if g = 0 then tab (4 * k + 3) else tab (4 * k + 2)) * minus_in_B_and_G.getD k 0 *
    (lam_scales_r lam).getD k 0

/-- The column of `XYZ_table` for one distance and size ratio: `generate_scalars_midfield.py` lines 374-381.
`nondimensionalise_scalars` changes its argument in place, but the mobility scalars are converted before.
`none` is `LinAlgError`. -/
noncomputable def XYZ_column (run : FCase → ℕ → ℝ) : Option (ℕ → ℝ) := do
  let z ← convert_dim_kim_mobility_to_dim_resistance (find_dim_kim_mobility_scalars run)
  some (nondimensionalise_scalars z.toList resistance_scales)

end SD
