import Verif.Model.Solve
import Verif.Spec.Linear
import Verif.Spec.Grand

/-!
# Specification of the mobility solve

What it means for a set of outputs to be the physical answer, to return the prescribed values
unchanged, and for a set of inputs to be complete. Only the input and output record types of the
model are used.
-/

set_option autoImplicit false

namespace SD.Spec

/-- Lengths of the input lists produced by `input_ftsuoe`: one row per particle; the strain list
may be longer (`max(1, num_spheres)` entries). -/
structure Sized (Ns Nd : ℕ) (inp : Inputs) : Prop where
  Fa : inp.Fa.length = Ns
  Ta : inp.Ta.length = Ns
  Sa : inp.Sa.length = Ns
  Fb : inp.Fb.length = Nd
  DFb : inp.DFb.length = Nd
  Ua : inp.Ua.length = Ns
  Ub : inp.Ub.length = Nd
  HalfDUb : inp.HalfDUb.length = Nd

/-- The outputs obey the grand resistance relation and have one row per particle. -/
structure Solves (Ns Nd : ℕ) (R : NDMat) (out : Outputs) : Prop where
  rel : LinRel R.get (11 * Ns + 6 * Nd)
    (pack Ns Nd out.Ua out.Oa out.Ea out.Ub out.HalfDUb)
    (pack Ns Nd out.Fa out.Ta out.Sa out.Fb out.DFb)
  Fa : out.Fa.length = Ns
  Ta : out.Ta.length = Ns
  Sa : out.Sa.length = Ns
  Fb : out.Fb.length = Nd
  DFb : out.DFb.length = Nd
  Ua : out.Ua.length = Ns
  Oa : out.Oa.length = Ns
  Ea : Ns ≤ out.Ea.length
  Ub : out.Ub.length = Nd
  HalfDUb : out.HalfDUb.length = Nd

/-- A row of numbers, seen as an input row. -/
def num3 (v : Fin 3 → ℝ) : OVec3 := fun c => some (v c)

/-- A matrix of numbers, seen as an input matrix. -/
def num33 (m : Fin 3 → Fin 3 → ℝ) : OMat3 := fun i j => some (m i j)

/-- The placeholder row. -/
def blank : OVec3 := fun _ => none

/-- All three components are numbers. -/
def Given3 (v : OVec3) : Prop := ∀ c, (v c).isSome

/-- All nine components are numbers. -/
def Given33 (m : OMat3) : Prop := ∀ c d, (m c d).isSome

/-- The values prescribed in `inp` are exactly the corresponding values of `out`. In the mixed forms
the first `k` spheres (`kd` dumbbells) have numeric velocities and all the others the placeholder. -/
def Echo (form : InputForm) (Ns Nd : ℕ) (inp : Inputs) (out : Outputs) : Prop :=
  match form with
  | .fts => inp.Fa = out.Fa.map num3 ∧ inp.Ta = out.Ta.map num3 ∧ inp.Sa = out.Sa.map num33 ∧
      inp.Fb = out.Fb.map num3 ∧ inp.DFb = out.DFb.map num3
  | .fte => inp.Fa = out.Fa.map num3 ∧ inp.Ta = out.Ta.map num3 ∧ inp.Ea = out.Ea.map num33 ∧
      inp.Fb = out.Fb.map num3 ∧ inp.DFb = out.DFb.map num3
  | .ufte => ∃ k ≤ Ns,
      inp.Ua = (out.Ua.take k).map num3 ++ List.replicate (Ns - k) blank ∧
      inp.Fa.drop k = (out.Fa.drop k).map num3 ∧ inp.Ta = out.Ta.map num3 ∧
      inp.Ea = out.Ea.map num33 ∧ inp.Fb = out.Fb.map num3 ∧ inp.DFb = out.DFb.map num3
  | .ufteu => ∃ k ≤ Ns, ∃ kd ≤ Nd,
      inp.Ua = (out.Ua.take k).map num3 ++ List.replicate (Ns - k) blank ∧
      inp.Fa.drop k = (out.Fa.drop k).map num3 ∧ inp.Ta = out.Ta.map num3 ∧
      inp.Ea = out.Ea.map num33 ∧
      inp.Ub = (out.Ub.take kd).map num3 ++ List.replicate (Nd - kd) blank ∧
      inp.HalfDUb.take kd = (out.HalfDUb.take kd).map num3 ∧
      inp.Fb.drop kd = (out.Fb.drop kd).map num3 ∧ inp.DFb.drop kd = (out.DFb.drop kd).map num3
  | .duf => ∃ kd ≤ Nd,
      inp.Ub = (out.Ub.take kd).map num3 ++ List.replicate (Nd - kd) blank ∧
      inp.HalfDUb.take kd = (out.HalfDUb.take kd).map num3 ∧
      inp.Fb.drop kd = (out.Fb.drop kd).map num3 ∧ inp.DFb.drop kd = (out.DFb.drop kd).map num3

/-- What each input form must be given: every required entry is a number, and in the mixed forms
the particles with prescribed velocities come first. -/
def Complete (form : InputForm) (Ns Nd : ℕ) (inp : Inputs) : Prop :=
  match form with
  | .fts => (∀ v ∈ inp.Fa, Given3 v) ∧ (∀ v ∈ inp.Ta, Given3 v) ∧ (∀ m ∈ inp.Sa, Given33 m) ∧
      (∀ v ∈ inp.Fb, Given3 v) ∧ (∀ v ∈ inp.DFb, Given3 v) ∧ (Ns = 0 → ∀ m ∈ inp.Ea, Given33 m)
  | .fte => (∀ v ∈ inp.Fa, Given3 v) ∧ (∀ v ∈ inp.Ta, Given3 v) ∧
      (Ns ≤ inp.Ea.length ∧ ∀ m ∈ inp.Ea, Given33 m) ∧
      (∀ v ∈ inp.Fb, Given3 v) ∧ (∀ v ∈ inp.DFb, Given3 v)
  | .ufte => ∃ k ≤ Ns, (∀ v ∈ inp.Ua.take k, Given3 v) ∧ (∀ v ∈ inp.Ua.drop k, v = blank) ∧
      (∀ v ∈ inp.Fa.drop k, Given3 v) ∧ (∀ v ∈ inp.Ta, Given3 v) ∧
      (Ns ≤ inp.Ea.length ∧ ∀ m ∈ inp.Ea, Given33 m) ∧
      (∀ v ∈ inp.Fb, Given3 v) ∧ (∀ v ∈ inp.DFb, Given3 v)
  | .ufteu => ∃ k ≤ Ns, ∃ kd ≤ Nd, (∀ v ∈ inp.Ua.take k, Given3 v) ∧
      (∀ v ∈ inp.Ua.drop k, v = blank) ∧
      (∀ v ∈ inp.Fa.drop k, Given3 v) ∧ (∀ v ∈ inp.Ta, Given3 v) ∧
      (Ns ≤ inp.Ea.length ∧ ∀ m ∈ inp.Ea, Given33 m) ∧
      (∀ v ∈ inp.Ub.take kd, Given3 v) ∧ (∀ v ∈ inp.Ub.drop kd, v = blank) ∧
      (∀ v ∈ inp.HalfDUb.take kd, Given3 v) ∧
      (∀ v ∈ inp.Fb.drop kd, Given3 v) ∧ (∀ v ∈ inp.DFb.drop kd, Given3 v)
  | .duf => ∃ kd ≤ Nd, (∀ v ∈ inp.Ub.take kd, Given3 v) ∧
      (∀ v ∈ inp.Ub.drop kd, v = blank) ∧ (∀ v ∈ inp.HalfDUb.take kd, Given3 v) ∧
      (∀ v ∈ inp.Fb.drop kd, Given3 v) ∧ (∀ v ∈ inp.DFb.drop kd, Given3 v) ∧
      (∀ m ∈ inp.Ea, Given33 m)

/-- The two sets of outputs describe the same motion and forces (the strain list may be longer than
the number of spheres; only the spheres' entries matter). -/
structure SameMotion (Ns : ℕ) (a b : Outputs) : Prop where
  Fa : a.Fa = b.Fa
  Ta : a.Ta = b.Ta
  Sa : a.Sa = b.Sa
  Fb : a.Fb = b.Fb
  DFb : a.DFb = b.DFb
  Ua : a.Ua = b.Ua
  Oa : a.Oa = b.Oa
  Ea : a.Ea.take Ns = b.Ea.take Ns
  Ub : a.Ub = b.Ub
  HalfDUb : a.HalfDUb = b.HalfDUb

end SD.Spec
