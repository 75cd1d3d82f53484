import Verif.Model.R2B
import Mathlib.Data.List.Sort

/-!
Start-up: the command line (`settings.py`), the size-ratio table and the choice of scalar file
(`resistance_scalars/data.py`), and the checks made before a run (`run_simulation.py`).
-/

set_option autoImplicit false

namespace SD

/-! ## Command line -/

/-- The digits of a Python integer literal, as accepted by the calls of `int` in `settings.py` lines
52, 56 and 58: decimal digits, with single underscores allowed between two digits. `acc` is the value so
far and `prev` says whether the previous character was a digit. Simplification: ASCII digits only, and no
limit of 4300 digits. -/
def readDigits : ℕ → Bool → List Char → Option ℕ
  | acc, prev, [] => if prev then some acc else none
  | acc, prev, c :: cs =>
    if c.isDigit then readDigits (10 * acc + (c.toNat - 48)) true cs
    else if c = '_' ∧ prev = true then readDigits acc false cs
    else none

/-- Whitespace removed by `int` at both ends: `settings.py` lines 52, 56 and 58. Simplification: ASCII
whitespace only. -/
def pySpace (c : Char) : Bool := c = ' ' || c = '\t' || c = '\n' || c = '\r' || c = '\x0b' || c = '\x0c'

/-- The sign and the digits: `int` in `settings.py` lines 52, 56 and 58. -/
def pySigned : List Char → Option ℤ
  | '-' :: cs => (readDigits 0 false cs).map fun n => -(n : ℤ)
  | '+' :: cs => (readDigits 0 false cs).map fun n => (n : ℤ)
  | cs => (readDigits 0 false cs).map fun n => (n : ℤ)

/-- `int(s)` for a command-line argument: `settings.py` lines 52, 56 and 58. `none` is `ValueError`. -/
def pyInt (s : String) : Option ℤ :=
  pySigned ((s.toList.dropWhile pySpace).reverse.dropWhile pySpace).reverse

/-- The settings which the command line can change: `settings.py` lines 25-36 and 127. `extract` is
`extract_force_on_wall_due_to_dumbbells`. -/
structure CliSettings where
  setup_number : ℤ
  input_number : ℤ
  timestep : ℝ
  num_frames : ℤ
  input_form : String
  extract : Bool

/-- The values written in the file: `settings.py` lines 25-36. The force-extraction flag has no value
before line 127 unless there is a sixth argument; `false` stands for that. -/
noncomputable def defaultSettings : CliSettings where
  setup_number := 1
  input_number := 1
  timestep := 1 / 10
  num_frames := 100
  input_form := "fte"
  extract := false

/-- The assignments from the command line, in the order of the code: `settings.py` lines 41-58. `none` is
the `ValueError` caught in line 59. `pf` is `float`; simplification: `float` is a parameter (`none` is
`ValueError`). -/
def readArguments (pf : String → Option ℝ) (args : List String) (S0 : CliSettings) : Option CliSettings := do
  let S1 := if 6 ≤ args.length then
      { S0 with extract := ["True", "true", "t", "T", "1"].contains (args.getD 5 "") } else S0
  let S2 := if 5 ≤ args.length then { S1 with input_form := args.getD 4 "" } else S1
  let S3 ← if 4 ≤ args.length then (pyInt (args.getD 3 "")).map fun n => { S2 with num_frames := n }
    else some S2
  let S4 ← if 3 ≤ args.length then (pf (args.getD 2 "")).map fun x => { S3 with timestep := x }
    else some S3
  let S5 ← if 2 ≤ args.length then (pyInt (args.getD 1 "")).map fun n => { S4 with input_number := n }
    else some S4
  if 1 ≤ args.length then (pyInt (args.getD 0 "")).map fun n => { S5 with setup_number := n }
    else some S5

/-- The settings a run uses: `settings.py` lines 25-62, with `none` for the exit in lines 59-62, followed by
line 127, which assigns the force-extraction flag again. -/
noncomputable def settingsOf (pf : String → Option ℝ) (args : List String) : Option CliSettings :=
  (readArguments pf args defaultSettings).map fun S => { S with extract := false }

/-! ## The size ratios -/

open Classical in
/-- The loop over the tabulated ratios: `resistance_scalars/data.py` lines 17-21. The loop runs over the
array as it was at the start; the test is on the array as it is now. Simplification: exact reals, so
`1/(1/lam)` is `lam`. -/
noncomputable def addReciprocals (lam_range : List ℝ) : List ℝ :=
  lam_range.foldl (fun acc lam => if 1 / lam ∈ acc then acc else acc ++ [1 / lam]) lam_range

open Classical in
/-- `lam_range_with_reciprocals`: `resistance_scalars/data.py` lines 16-22. -/
noncomputable def lamRangeWithReciprocals (lam_range : List ℝ) : List ℝ :=
  (addReciprocals lam_range).mergeSort fun a b => decide (a ≤ b)

/-- The two tables of scalars: `resistance_scalars/data.py` lines 27 and 29. -/
inductive ScalarFile
  | full | drag
  deriving DecidableEq

/-- Which file is opened: `resistance_scalars/data.py` lines 26-29. -/
def scalarFile (use_drag_Minfinity use_drag_R2Binfinity : Bool) : ScalarFile :=
  if !use_drag_Minfinity || (use_drag_Minfinity && use_drag_R2Binfinity) then .full else .drag

/-- `XYZ_raw`: `resistance_scalars/data.py` lines 26-36. `disk` gives the contents of the files there are;
a missing file gives an empty list (lines 34-36), here `none`. -/
def loadScalars {α : Type} (disk : ScalarFile → Option α) (use_drag_Minfinity use_drag_R2Binfinity : Bool) :
    Option α :=
  disk (scalarFile use_drag_Minfinity use_drag_R2Binfinity)

/-! ## Checks before a run -/

/-- The reasons to stop at start-up: `run_simulation.py` lines 744-770. -/
inductive StartError
  | dumbbellsOnly | hasSpheres | badInput | ratio
  deriving DecidableEq

open Classical in
/-- The checks before a run: `run_simulation.py` lines 735-770. `table` is `lam_range_with_reciprocals` and
`inputOk` says whether the call of `input_ftsuoe` in lines 755-760 returns. Simplifications: the warning of
lines 751-753 is dropped, the two `set`s (lines 763-764) are lists, as only membership matters. Each
`throw_error` ends the program (`functions/shared.py` lines 32-37). -/
noncomputable def startUp (input_form : String) (sphere_sizes : List ℝ) (inputOk : Bool) (table : List ℝ) :
    Except StartError Unit := do
  if sphere_sizes.length = 0 ∧
      input_form ∉ ["fts", "duf", "RPY_dumbbells_only", "stokes_drag_dumbbells_only"] then
    throw .dumbbellsOnly
  if 0 < sphere_sizes.length ∧
      input_form ∈ ["duf", "RPY_dumbbells_only", "stokes_drag_dumbbells_only"] then
    throw .hasSpheres
  if inputOk = false then
    throw .badInput
  let size_ratios := sphere_sizes.flatMap fun i => sphere_sizes.map fun j => i / j
  for size_ratio in size_ratios do
    if ¬ table.any (fun t => decide (isclose size_ratio t)) then
      throw .ratio

end SD
