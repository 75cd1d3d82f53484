import Verif.Spec.Superpose
import Verif.Spec.NearField
import Verif.Spec.Separate
import Verif.Model.Frame

/-!
# Specification: a simulation seen after a rigid motion

The rigid motion is `x ↦ Q x + t`, with `Q` orthogonal (a reflection is allowed).
-/

set_option autoImplicit false

namespace SD.Spec

/-- The point `x` moved. -/
def movePoint (Q : Fin 3 → Fin 3 → ℝ) (t x : Fin 3 → ℝ) : Fin 3 → ℝ := fun i => turnVec Q x i + t i

/-- The axial vector `w` turned. -/
def turnAxial (Q : Fin 3 → Fin 3 → ℝ) (w : Fin 3 → ℝ) : Fin 3 → ℝ := fun i => det3 Q * turnVec Q w i

/-- All particles, with their orientation arrows, moved. -/
noncomputable def movedConfig (Q : Fin 3 → Fin 3 → ℝ) (t : Fin 3 → ℝ) (c : Config) : Config where
  P := shift (turned c.P Q) t
  rots := fun i j => movePoint Q t (c.rots i j)

/-- Velocities turned. -/
def turnedVel (Q : Fin 3 → Fin 3 → ℝ) (v : Vel) : Vel where
  Ua := fun i => turnVec Q (v.Ua i)
  Ub := fun i => turnVec Q (v.Ub i)
  HalfDUb := fun i => turnVec Q (v.HalfDUb i)
  Oa := fun i => turnAxial Q (v.Oa i)

/-- Saved forces turned. -/
def turnedForces (Q : Fin 3 → Fin 3 → ℝ) (f : Forces) : Forces where
  Fa := f.Fa.map (turnVec Q)
  Fb := f.Fb.map (turnVec Q)
  DFb := f.DFb.map (turnVec Q)
  Sa := f.Sa.map (turnMat Q)

/-- The content of a saved file, moved. -/
noncomputable def movedSaved (Q : Fin 3 → Fin 3 → ℝ) (t : Fin 3 → ℝ) (d : Saved) : Saved where
  positions := d.positions.map (movedConfig Q t)
  forces := d.forces.map (turnedForces Q)

/-- The inputs `u'` are the inputs `u` moved: the loads and motions of the particles turned, the background flow
turned about the moved centre. There is no periodic box. `F` says that the background flow may vary in space; if not,
the rotation of the fluid is zero, the strains are prescribed as zero, and the centre does not matter. -/
structure MovedInput (F : Prop) (form : InputForm) (Q : Fin 3 → Fin 3 → ℝ) (t : Fin 3 → ℝ) (u u' : UserInput) : Prop where
  inp : u'.inp = (turning Q).inputs u.inp u.inp
  U : u'.U = turnVec Q u.U
  O : u'.O = turnAxial Q u.O
  centre : F → u'.centre = movePoint Q t u.centre
  uniform : ¬ F → form ≠ .fts ∧ u.O = 0 ∧ ∀ m ∈ u.inp.Ea, m = num33 0
  mu : u'.mu = u.mu
  unbounded : u.bl = u.tr
  unbounded' : u'.bl = u'.tr

/-- The input function of `W'`, asked about the moved configuration, answers with the moved inputs of `W`; the
tables are the same. (The inputs may not depend on the resistance matrix.) -/
structure MovedWorld (F : Prop) (form : InputForm) (Q : Fin 3 → Fin 3 → ℝ) (t : Fin 3 → ℝ) (W W' : World) : Prop where
  table : W'.table = W.table
  input : ∀ c f dt v r r' u, r.isSome = r'.isSome → W.input_ftsuoe c f dt v r = some u →
    ∃ u', W'.input_ftsuoe (movedConfig Q t c) f dt (turnedVel Q v) r' = some u' ∧
      MovedInput F form Q t u u'

open Classical in
/-- The input function stops the program at the first configuration that is not in `G`. -/
noncomputable def watched (W : World) (G : Config → Prop) : World :=
  { W with input_ftsuoe := fun c f dt v r => if G c then W.input_ftsuoe c f dt v r else none }

/-- The state `s'` is the state `s` moved (the cached matrices may be anything). -/
structure MovedState (Q : Fin 3 → Fin 3 → ℝ) (t : Fin 3 → ℝ) (s s' : State) : Prop where
  posdata : s'.posdata = movedConfig Q t s.posdata
  error : s'.error = s.error
  lastVel : s'.lastVel = turnedVel Q s.lastVel
  savedPos : s'.savedPos = s.savedPos.map (List.map (movedConfig Q t))
  savedForces : s'.savedForces = s.savedForces.map (List.map (turnedForces Q))
  temp : s'.temp = s.temp.map (movedSaved Q t)

/-- What is asked of every configuration that the simulation visits: spheres outside each other, with radii and
separations that the tables cover, and complete inputs with traceless strains. -/
structure Calm (W : World) (S : Settings) (c : Config) : Prop where
  sensible : Sensible c.P
  separate : Separate c.P
  tabulated : Tabulated W.table.lam c.P S.cutoff_factor
  allowed : formAllowed S.input_form c.P.Ns
  beads : S.bead_bead_interactions = true ∨ c.P.Nd = 0
  inputs : ∀ f dt v r u, W.input_ftsuoe c f dt v r = some u →
    Sized c.P.Ns c.P.Nd u.inp ∧ Traceless u.inp ∧ 0 < u.mu

/-- The motion keeps the plane of a planar problem (the code sets the second velocity component to zero). -/
def FlatOk (S : Settings) (Q : Fin 3 → Fin 3 → ℝ) : Prop :=
  S.fully_2d_problem = true → ∀ j, j ≠ 1 → Q 1 j = 0 ∧ Q j 1 = 0

end SD.Spec
