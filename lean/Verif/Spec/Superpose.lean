import Verif.Spec.Solve
import Verif.Spec.Isotropy

/-!
# Specification: making one problem out of two, and turning a problem

A `Rule` says how the loads and motions of one particle are made from those of two given problems.
-/

set_option autoImplicit false

namespace SD.Spec

/-- How forces, torques, stresslets, velocities, angular velocities and rates of strain are made from those of two
problems. -/
structure Rule where
  F : (Fin 3 → ℝ) → (Fin 3 → ℝ) → Fin 3 → ℝ
  T : (Fin 3 → ℝ) → (Fin 3 → ℝ) → Fin 3 → ℝ
  S : (Fin 3 → Fin 3 → ℝ) → (Fin 3 → Fin 3 → ℝ) → Fin 3 → Fin 3 → ℝ
  U : (Fin 3 → ℝ) → (Fin 3 → ℝ) → Fin 3 → ℝ
  O : (Fin 3 → ℝ) → (Fin 3 → ℝ) → Fin 3 → ℝ
  E : (Fin 3 → Fin 3 → ℝ) → (Fin 3 → Fin 3 → ℝ) → Fin 3 → Fin 3 → ℝ

/-- `a` times the first problem plus `b` times the second. -/
def superpose (a b : ℝ) : Rule where
  F u v := fun k => a * u k + b * v k
  T u v := fun k => a * u k + b * v k
  S u v := fun k l => a * u k l + b * v k l
  U u v := fun k => a * u k + b * v k
  O u v := fun k => a * u k + b * v k
  E u v := fun k l => a * u k l + b * v k l

/-- The first problem turned (or reflected) by `Q`. -/
def turning (Q : Fin 3 → Fin 3 → ℝ) : Rule where
  F u _ := turnVec Q u
  T u _ := fun i => det3 Q * turnVec Q u i
  S u _ := turnMat Q u
  U u _ := turnVec Q u
  O u _ := fun i => det3 Q * turnVec Q u i
  E u _ := turnMat Q u

/-- The first problem with lengths multiplied by `k`, forces and viscosity kept. -/
noncomputable def enlarging (k : ℝ) : Rule where
  F u _ := u
  T u _ := fun i => k * u i
  S u _ := fun i j => k * u i j
  U u _ := fun i => u i / k
  O u _ := fun i => u i / k ^ 2
  E u _ := fun i j => u i j / k ^ 2

open Classical in
/-- The numbers of a row of inputs, if all three are there. -/
noncomputable def numbers3 (u : OVec3) : Option (Fin 3 → ℝ) :=
  if Given3 u then some fun c => (u c).getD 0 else none

open Classical in
/-- The numbers of a matrix of inputs, if all nine are there. -/
noncomputable def numbers33 (u : OMat3) : Option (Fin 3 → Fin 3 → ℝ) :=
  if Given33 u then some fun c d => (u c d).getD 0 else none

/-- The row made from two rows of inputs; the placeholder if one of them is not complete. -/
noncomputable def rows (g : (Fin 3 → ℝ) → (Fin 3 → ℝ) → Fin 3 → ℝ) (u v : OVec3) : OVec3 :=
  ((numbers3 u).bind fun a => (numbers3 v).map fun b => num3 (g a b)).getD blank

/-- The matrix made from two matrices of inputs; the placeholder if one of them is not complete. -/
noncomputable def mats (g : (Fin 3 → Fin 3 → ℝ) → (Fin 3 → Fin 3 → ℝ) → Fin 3 → Fin 3 → ℝ) (u v : OMat3) : OMat3 :=
  ((numbers33 u).bind fun a => (numbers33 v).map fun b => num33 (g a b)).getD fun _ _ => none

/-- The inputs made from two sets of inputs, particle by particle. -/
noncomputable def Rule.inputs (m : Rule) (x y : Inputs) : Inputs where
  Fa := List.zipWith (rows m.F) x.Fa y.Fa
  Ta := List.zipWith (rows m.T) x.Ta y.Ta
  Sa := List.zipWith (mats m.S) x.Sa y.Sa
  Fb := List.zipWith (rows m.F) x.Fb y.Fb
  DFb := List.zipWith (rows m.F) x.DFb y.DFb
  Ua := List.zipWith (rows m.U) x.Ua y.Ua
  Ea := List.zipWith (mats m.E) x.Ea y.Ea
  Ub := List.zipWith (rows m.U) x.Ub y.Ub
  HalfDUb := List.zipWith (rows m.U) x.HalfDUb y.HalfDUb

/-- The forces and motions made from two sets of outputs, particle by particle. -/
def Rule.outputs (m : Rule) (x y : Outputs) : Outputs where
  Fa := List.zipWith m.F x.Fa y.Fa
  Ta := List.zipWith m.T x.Ta y.Ta
  Sa := List.zipWith m.S x.Sa y.Sa
  Fb := List.zipWith m.F x.Fb y.Fb
  DFb := List.zipWith m.F x.DFb y.DFb
  Ua := List.zipWith m.U x.Ua y.Ua
  Oa := List.zipWith m.O x.Oa y.Oa
  Ea := List.zipWith m.E x.Ea y.Ea
  Ub := List.zipWith m.U x.Ub y.Ub
  HalfDUb := List.zipWith m.U x.HalfDUb y.HalfDUb

/-- Every stresslet and rate of strain that is given is symmetric and traceless. -/
def Traceless (inp : Inputs) : Prop :=
  (∀ m, num33 m ∈ inp.Sa → SymTraceless m) ∧ ∀ m, num33 m ∈ inp.Ea → SymTraceless m

/-- The same spheres and the same dumbbells have prescribed velocities. -/
def SameFixed (x y : Inputs) : Prop :=
  (∀ i, x.Ua.getD i blank = blank ↔ y.Ua.getD i blank = blank) ∧
  ∀ i, x.Ub.getD i blank = blank ↔ y.Ub.getD i blank = blank

/-- Nothing acts and nothing moves; `n` entries in the list of rates of strain. -/
def atRest (Ns Nd n : ℕ) : Outputs where
  Fa := List.replicate Ns 0
  Ta := List.replicate Ns 0
  Sa := List.replicate Ns 0
  Fb := List.replicate Nd 0
  DFb := List.replicate Nd 0
  Ua := List.replicate Ns 0
  Oa := List.replicate Ns 0
  Ea := List.replicate n 0
  Ub := List.replicate Nd 0
  HalfDUb := List.replicate Nd 0

end SD.Spec
