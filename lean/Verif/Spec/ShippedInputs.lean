import Verif.Spec.Progress
import Verif.Model.ShippedInputs

/-!
# Specification: which of the project's own input numbers can be used with which form of input
-/

set_option autoImplicit false

namespace SD.Spec

/-- The world uses the project's input number `n` and the form of input `form`. -/
def Ships (n : ℕ) (form : InputForm) (W : World) : Prop :=
  ∀ c f dt v r, W.input_ftsuoe c f dt v r = input_ftsuoe n form c.P f dt

/-- The numbers that can be simulated with `Ns` spheres: with prescribed forces all seven (without spheres only the
two that set a strain), with some prescribed velocities four of them, and none with the two forms in which the
velocities of dumbbells are prescribed. -/
def Works (n : ℕ) (form : InputForm) (Ns : ℕ) : Prop :=
  match form with
  | .fts => 1 ≤ n ∧ n ≤ 7 ∧ (Ns = 0 → n = 3 ∨ n = 7)
  | .fte => 1 ≤ n ∧ n ≤ 7
  | .ufte => n = 1 ∨ n = 2 ∨ n = 5 ∨ n = 6
  | .ufteu => False
  | .duf => False

end SD.Spec
