import Mathlib.Data.Real.Basic

/-!
# Specification of reading a number from a text
-/

set_option autoImplicit false

namespace SD.Spec

/-- The number written in decimal in a text, spaces ignored. -/
def readNat (l : List Char) : ℕ :=
  l.foldl (fun acc c => if c = ' ' then acc else 10 * acc + (c.toNat - 48)) 0

/-- The text consists of decimal digits and at least one of them. -/
def Decimal (l : List Char) : Prop := l ≠ [] ∧ ∀ c ∈ l, c.isDigit

/-- The text is two places wide: two digits, or a space and a digit. -/
def TwoPlaces (l : List Char) : Prop := ∃ a b, l = [a, b] ∧ (a = ' ' ∨ a.isDigit) ∧ b.isDigit

end SD.Spec
