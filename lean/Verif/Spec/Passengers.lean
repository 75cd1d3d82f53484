import Verif.Spec.Renumbered
import Verif.Spec.Moved

/-!
# Specification: orientation arrows as passengers, and suspensions that are their own image up to the order of particles
-/

set_option autoImplicit false

namespace SD.Spec

/-- The input function does not look at the arrows. -/
def Blind (W : World) : Prop := ∀ c c', c.P = c'.P → W.input_ftsuoe c = W.input_ftsuoe c'

/-- Two files with the same particles and forces (the arrows may differ). -/
structure Alike (d d' : Saved) : Prop where
  positions : d.positions.map Config.P = d'.positions.map Config.P
  forces : d.forces = d'.forces

/-- The motion `x ↦ Q x + t` puts every sphere where the sphere `σ i` was, and every dumbbell where the dumbbell `τ i`
was. -/
def Exchanged (Q : Fin 3 → Fin 3 → ℝ) (t : Vec3) (σ τ : ℕ → ℕ) (P : PosData) : Prop :=
  shift (turned P Q) t = relabel P σ τ

end SD.Spec
