import Mathlib.Data.Real.Basic

/-!
What start-up should do, stated without the code.
-/

set_option autoImplicit false

namespace SD.Spec

/-- The `k`-th argument, read by `parse`, gives the value; without that argument the default stays. -/
def Overrides {α : Type} (args : List String) (k : ℕ) (parse : String → Option α) (default value : α) :
    Prop :=
  match args[k]? with
  | none => value = default
  | some a => parse a = some value

/-- An argument that is there but cannot be read. -/
def Malformed {α : Type} (args : List String) (k : ℕ) (parse : String → Option α) : Prop :=
  ∃ a, args[k]? = some a ∧ parse a = none

/-- The words which mean "yes". -/
def Yes (s : String) : Prop := s = "True" ∨ s = "true" ∨ s = "t" ∨ s = "T" ∨ s = "1"

/-- The forms of input for which there is a simulation of dumbbells alone. -/
def DumbbellOnly (form : String) : Prop :=
  form = "duf" ∨ form = "RPY_dumbbells_only" ∨ form = "stokes_drag_dumbbells_only"

end SD.Spec
