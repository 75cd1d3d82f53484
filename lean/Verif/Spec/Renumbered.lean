import Verif.Spec.Superpose
import Verif.Spec.Units
import Verif.Model.Frame

/-!
# Specification: a simulation with the particles in another order
-/

set_option autoImplicit false

namespace SD.Spec

/-- `σ` puts the numbers below `n` in another order and leaves the others alone. -/
structure Reorders (n : ℕ) (σ : ℕ → ℕ) : Prop where
  lt : ∀ i < n, σ i < n
  inj : ∀ i < n, ∀ j < n, σ i = σ j → i = j
  rest : ∀ i, n ≤ i → σ i = i

/-- The list whose entry `i` is the entry `σ i` of `l`. -/
def reorder {α : Type} (σ : ℕ → ℕ) (l : List α) : List α := l.mapIdx fun i x => l.getD (σ i) x

/-- The inputs of the reordered particles. -/
def reorderInputs (σ τ : ℕ → ℕ) (x : Inputs) : Inputs where
  Fa := reorder σ x.Fa
  Ta := reorder σ x.Ta
  Sa := reorder σ x.Sa
  Fb := reorder τ x.Fb
  DFb := reorder τ x.DFb
  Ua := reorder σ x.Ua
  Ea := reorder σ x.Ea
  Ub := reorder τ x.Ub
  HalfDUb := reorder τ x.HalfDUb

/-- The outputs for the reordered particles. -/
def reorderOutputs (σ τ : ℕ → ℕ) (x : Outputs) : Outputs where
  Fa := reorder σ x.Fa
  Ta := reorder σ x.Ta
  Sa := reorder σ x.Sa
  Fb := reorder τ x.Fb
  DFb := reorder τ x.DFb
  Ua := reorder σ x.Ua
  Oa := reorder σ x.Oa
  Ea := reorder σ x.Ea
  Ub := reorder τ x.Ub
  HalfDUb := reorder τ x.HalfDUb

/-- In the forms with prescribed velocities the code asks for the particles with prescribed velocities to come first.
The order has to keep this. -/
def KeepsFixed (σ τ : ℕ → ℕ) (x : Inputs) : Prop :=
  (∀ i, x.Ua.getD (σ i) blank = blank ↔ x.Ua.getD i blank = blank) ∧
  ∀ i, x.Ub.getD (τ i) blank = blank ↔ x.Ub.getD i blank = blank

/-- All particles, with their orientation arrows, in another order. -/
def reorderConfig (σ τ : ℕ → ℕ) (c : Config) : Config where
  P := relabel c.P σ τ
  rots := fun i => c.rots (σ i)

/-- Velocities in another order. -/
def reorderVel (σ τ : ℕ → ℕ) (v : Vel) : Vel where
  Ua := fun i => v.Ua (σ i)
  Ub := fun i => v.Ub (τ i)
  HalfDUb := fun i => v.HalfDUb (τ i)
  Oa := fun i => v.Oa (σ i)

/-- Saved forces in another order. -/
def reorderForces (σ τ : ℕ → ℕ) (f : Forces) : Forces where
  Fa := reorder σ f.Fa
  Fb := reorder τ f.Fb
  DFb := reorder τ f.DFb
  Sa := reorder σ f.Sa

/-- The content of a saved file, in another order. -/
def reorderSaved (σ τ : ℕ → ℕ) (d : Saved) : Saved where
  positions := d.positions.map (reorderConfig σ τ)
  forces := d.forces.map (reorderForces σ τ)

/-- The inputs `u'` are the inputs `u` in another order, with the same background flow and viscosity. There is no
periodic box. The code moves every dumbbell with the rate of strain of the first sphere (`Ea_out_k1[0]`), so with
dumbbells the first sphere has to stay the first, or the rate of strain has to be given and uniform. -/
structure ReorderedInput (form : InputForm) (Nd : ℕ) (σ τ : ℕ → ℕ) (u u' : UserInput) : Prop where
  inp : u'.inp = reorderInputs σ τ u.inp
  U : u'.U = u.U
  O : u'.O = u.O
  centre : u'.centre = u.centre
  mu : u'.mu = u.mu
  unbounded : u.bl = u.tr
  unbounded' : u'.bl = u'.tr
  fixed : form ≠ .fts → form ≠ .fte → KeepsFixed σ τ u.inp
  first : 0 < Nd → σ 0 = 0 ∨ form ≠ .fts ∧ ∀ a ∈ u.inp.Ea, ∀ b ∈ u.inp.Ea, a = b

/-- The input function of `W'`, asked about the reordered configuration, answers with the reordered inputs of `W`; the
tables are the same. (The inputs may not depend on the resistance matrix.) -/
structure ReorderedWorld (form : InputForm) (Ns Nd : ℕ) (σ τ : ℕ → ℕ) (W W' : World) : Prop where
  table : W'.table = W.table
  input : ∀ c f dt v r r' u, c.P.Ns = Ns → c.P.Nd = Nd → r.isSome = r'.isSome → W.input_ftsuoe c f dt v r = some u →
    ∃ u', W'.input_ftsuoe (reorderConfig σ τ c) f dt (reorderVel σ τ v) r' = some u' ∧
      ReorderedInput form Nd σ τ u u'

/-- The state `s'` is the state `s` in another order (the cached matrices may be anything). -/
structure ReorderedState (σ τ : ℕ → ℕ) (s s' : State) : Prop where
  posdata : s'.posdata = reorderConfig σ τ s.posdata
  error : s'.error = s.error
  lastVel : s'.lastVel = reorderVel σ τ s.lastVel
  savedPos : s'.savedPos = s.savedPos.map (List.map (reorderConfig σ τ))
  savedForces : s'.savedForces = s.savedForces.map (List.map (reorderForces σ τ))
  temp : s'.temp = s.temp.map (reorderSaved σ τ)

end SD.Spec
