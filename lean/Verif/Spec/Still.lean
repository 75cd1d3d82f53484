import Verif.Spec.Progress
import Verif.Spec.Superpose

/-!
# Specification: a simulation in which nothing acts
-/

set_option autoImplicit false

namespace SD.Spec

/-- At the configuration `c` everything that the input function prescribes is zero, and the fluid is at rest. -/
def Idle (W : World) (S : Settings) (c : Config) : Prop :=
  ∀ f dt v r u, W.input_ftsuoe c f dt v r = some u → u.U = 0 ∧ u.O = 0 ∧
    ∃ n, c.P.Ns ≤ n ∧ Echo S.input_form c.P.Ns c.P.Nd u.inp (atRest c.P.Ns c.P.Nd n) ∧
      (c.P.Ns = 0 → ∀ m ∈ u.inp.Ea, m = num33 0)

/-- No forces on any particle. -/
def noForces (c : Config) : Forces where
  Fa := List.replicate c.P.Ns 0
  Fb := List.replicate c.P.Nd 0
  DFb := List.replicate c.P.Nd 0
  Sa := List.replicate c.P.Ns 0

end SD.Spec
