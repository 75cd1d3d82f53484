import Verif.Model.R2B
import Verif.Model.ShippedData

/-!
# The table of resistance scalars that comes with the program
-/

set_option autoImplicit false

namespace SD

/-- The column of the table for each index of a size ratio: `resistance_scalars/data.py` lines 26-33. -/
def shippedColumn : ℕ → List (List ℤ)
  | 0 => shipped_1_100
  | 1 => shipped_1_10
  | 2 => shipped_1
  | 3 => shipped_10
  | 4 => shipped_100
  | _ => []

/-- `XYZ_raw[k, g, n, l]` times `2 ^ 78`: `resistance_scalars/data.py` lines 26-33. -/
def shippedRaw (k g n l : ℕ) : ℤ := ((shippedColumn l).getD n []).getD (11 * g + k) 0

/-- `s_dash_range` in units of `1e-5`: `resistance_scalars/data.py` line 13,
`resistance_scalars/values_of_s_dash.txt`. -/
def shippedDist : List ℕ :=
  [200001, 200002, 200005, 200010, 200020, 200050, 200100, 200200, 200500, 201000, 202000, 202500, 205000,
    210000, 220000, 230000, 240000, 250000, 260000, 270000, 280000, 290000, 300000, 310000, 320000, 330000,
    340000, 350000, 360000, 370000, 380000, 390000, 400000, 410000, 420000, 430000, 440000, 450000]

/-- The table that comes with the program: `resistance_scalars/data.py` lines 13-33, with the settings for which
the file `scalars_general_resistance_d.npy` is read (lines 26-27). The size ratios are those of
`values_of_lambda.txt` and their reciprocals (lines 16-22). -/
noncomputable def shippedTable : ScalarTable where
  sDash := shippedDist.map fun n : ℕ => (n : ℝ) / 100000
  lam := [1 / 100, 1 / 10, 1, 10, 100]
  raw := fun k g n l => (shippedRaw k g n l : ℝ) / 2 ^ 78

end SD
