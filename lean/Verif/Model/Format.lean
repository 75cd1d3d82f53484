import Verif.Model.Timestep
import Mathlib.Algebra.Order.Floor.Ring

/-!
# Formatting of durations

Strings are lists of characters.
-/

set_option autoImplicit false

namespace SD

/-- The decimal digits that Python prints for a natural number with `%d`: `functions/shared.py` lines 280,
284, 288 and `find_resistance_scalars/functions_general.py` line 59. -/
def pyDigits (n : ℕ) : List Char :=
  if n < 10 then [Char.ofNat (48 + n)] else pyDigits (n / 10) ++ [Char.ofNat (48 + n % 10)]
termination_by n

/-- Padding on the left, as in `%2d` and `%02d`: `functions/shared.py` lines 280, 284, 288. -/
def padLeft (w : ℕ) (c : Char) (l : List Char) : List Char := List.replicate (w - l.length) c ++ l

/-- `divmod(x, 60)` and the like for a nonnegative real number: quotient as a whole number and remainder.
`functions/shared.py` lines 277-279, 282-283, 286-287. -/
noncomputable def divmodR (x : ℝ) (m : ℕ) : ℕ × ℝ := (⌊x / m⌋₊, x - m * ⌊x / m⌋₊)

/-- `divmod` of a whole number: `functions/shared.py` lines 278-279, 283, 287. -/
def divmodN (x m : ℕ) : ℕ × ℕ := (x / m, x % m)

open Classical in
/-- Rounding half to even, as in `'{:7.1f}'`: `functions/shared.py` line 290. -/
noncomputable def roundHalfEven (x : ℝ) : ℤ :=
  if x - ⌊x⌋ < 1 / 2 then ⌊x⌋ else if x - ⌊x⌋ > 1 / 2 then ⌊x⌋ + 1
  else if Even ⌊x⌋ then ⌊x⌋ else ⌊x⌋ + 1

open Classical in
/-- `'{:7.1f}'.format(x)`: `functions/shared.py` line 290. Simplification: the number is a real number, not
its nearest double. -/
noncomputable def format71f (x : ℝ) : List Char :=
  let k := (roundHalfEven (10 * x)).natAbs
  padLeft 7 ' ' ((if x < 0 then ['-'] else []) ++ pyDigits (k / 10) ++ ['.'] ++ pyDigits (k % 10))

open Classical in
/-- `format_elapsed_time(elapsed_time)`: `functions/shared.py` lines 274-290. `%d` of a nonnegative float
is its whole part. -/
noncomputable def format_elapsed_time (elapsed_time : ℝ) : List Char :=
  if elapsed_time ≥ 86400 then
    let (m, s) := divmodR elapsed_time 60
    let (h, m) := divmodN m 60
    let (d, h) := divmodN h 24
    pyDigits d ++ ['d'] ++ padLeft 2 ' ' (pyDigits h) ++ [':'] ++ padLeft 2 '0' (pyDigits m) ++ [':']
      ++ padLeft 2 '0' (pyDigits ⌊s⌋₊)
  else if elapsed_time ≥ 3600 then
    let (m, s) := divmodR elapsed_time 60
    let (h, m) := divmodN m 60
    padLeft 2 ' ' (pyDigits h) ++ [':'] ++ padLeft 2 '0' (pyDigits m) ++ [':']
      ++ padLeft 2 '0' (pyDigits ⌊s⌋₊)
  else if elapsed_time ≥ 60 then
    let (m, s) := divmodR elapsed_time 60
    let (_, m) := divmodN m 60
    [' ', ' ', ' '] ++ padLeft 2 ' ' (pyDigits m) ++ [':'] ++ padLeft 2 '0' (pyDigits ⌊s⌋₊)
  else format71f elapsed_time ++ ['s']

/-- `format_seconds(elapsed_time)` for a nonnegative duration:
`find_resistance_scalars/functions_general.py` lines 55-59. -/
noncomputable def format_seconds (elapsed_time : ℝ) : List Char :=
  let (m, s) := divmodR elapsed_time 60
  let (h, m) := divmodN m 60
  pyDigits h ++ ['h'] ++ padLeft 2 '0' (pyDigits m) ++ ['m'] ++ padLeft 2 '0' (pyDigits ⌊s⌋₊) ++ ['s']

end SD
