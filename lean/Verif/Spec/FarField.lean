import Mathlib.Analysis.Calculus.Deriv.Basic
import Mathlib.Analysis.SpecialFunctions.Sqrt
import Mathlib.LinearAlgebra.Matrix.Notation
import Mathlib.Analysis.SpecialFunctions.Trigonometric.Basic
import Verif.Spec.Grand

/-!
# Specification of far-field hydrodynamic interactions

Written from the physics, without reference to the model: the Oseen tensor as a function of the
displacement, genuine partial derivatives, the disturbance flow of a force, torque or stresslet on a
sphere, and the velocity, angular velocity and rate of strain that Faxén's laws give a sphere in a
flow. The viscosity prefactor `1/(8 pi mu)` is applied by the caller.
-/

set_option autoImplicit false

namespace SD.Spec

/-- Partial derivative in coordinate `l`. -/
noncomputable def pd (l : Fin 3) (f : (Fin 3 → ℝ) → ℝ) (r : Fin 3 → ℝ) : ℝ :=
  deriv (fun t => f (Function.update r l t)) (r l)

/-- Laplacian. -/
noncomputable def lap (f : (Fin 3 → ℝ) → ℝ) (r : Fin 3 → ℝ) : ℝ := ∑ l, pd l (pd l f) r

/-- Euclidean length. -/
noncomputable def len (r : Fin 3 → ℝ) : ℝ := Real.sqrt (∑ i, r i ^ 2)

/-- Kronecker delta. -/
def dlt (i j : Fin 3) : ℝ := if i = j then 1 else 0

/-- Levi-Civita symbol. -/
def eps (i j k : Fin 3) : ℝ :=
  if (i, j, k) = (0, 1, 2) ∨ (i, j, k) = (1, 2, 0) ∨ (i, j, k) = (2, 0, 1) then 1
  else if (i, j, k) = (0, 2, 1) ∨ (i, j, k) = (2, 1, 0) ∨ (i, j, k) = (1, 0, 2) then -1
  else 0

/-- The Oseen tensor `δ_ij/r + r_i r_j/r³`. -/
noncomputable def oseen (i j : Fin 3) (r : Fin 3 → ℝ) : ℝ := dlt i j / len r + r i * r j / len r ^ 3

/-- A load on a sphere: a force component, a torque component, or a stresslet component `jk`. -/
inductive Load
  | force (j : Fin 3)
  | torque (j : Fin 3)
  | stress (j k : Fin 3)

/-- Component `m` of the flow at displacement `r` from a sphere of radius `b` carrying the unit
load (times `8 pi mu`): the multipole expansion of the Oseen tensor about the centre of the sphere.
The sphere is at the origin, so its derivatives are minus the derivatives in `r`. -/
noncomputable def flow (b : ℝ) (ld : Load) (m : Fin 3) (r : Fin 3 → ℝ) : ℝ :=
  match ld with
  | .force j => oseen m j r + b ^ 2 / 6 * lap (oseen m j) r
  | .torque j => -(1 / 2) * ∑ k, ∑ l, eps j k l * pd k (oseen m l) r
  | .stress j k =>
    -(1 / 2) * (pd k (oseen m j) r + pd j (oseen m k) r)
      - b ^ 2 / 10 * ((1 / 2) * (lap (pd k (oseen m j)) r + lap (pd j (oseen m k)) r))

/-- Faxén's laws: the motion (velocity for `force`, angular velocity for `torque`, rate of strain for
`stress`) of a force-free sphere of radius `a` in the ambient flow `u`. -/
noncomputable def faxen (a : ℝ) (ld : Load) (u : Fin 3 → (Fin 3 → ℝ) → ℝ) (r : Fin 3 → ℝ) : ℝ :=
  match ld with
  | .force i => u i r + a ^ 2 / 6 * lap (u i) r
  | .torque i => 1 / 2 * ∑ k, ∑ l, eps i k l * pd k (u l) r
  | .stress i j =>
    1 / 2 * (pd j (u i) r + pd i (u j) r)
      + a ^ 2 / 10 * (1 / 2 * (lap (pd j (u i)) r + lap (pd i (u j)) r))

/-- Response of kind `l1` of a sphere of radius `a` at displacement `r` from a sphere of radius `b`
carrying load `l2` (times `8 pi mu`). -/
noncomputable def response (a b : ℝ) (l1 l2 : Load) (r : Fin 3 → ℝ) : ℝ :=
  faxen a l1 (flow b l2) r

/-! ## Rows of a grand matrix in bead coordinates -/

/-- A scalar component of the load or motion of a bead: force/velocity, torque/angular velocity, or
one of the five components of a stresslet/rate of strain. -/
inductive Comp
  | f (i : Fin 3)
  | t (i : Fin 3)
  | s (p : Fin 5)

/-- Beads `0..Ns-1` are spheres and carry all components, the `2 Nd` others only forces. -/
def HasRow (Ns Nd u : ℕ) : Comp → Prop
  | .f _ => u < Ns + 2 * Nd
  | .t _ => u < Ns
  | .s _ => u < Ns

/-- Row number of a component of bead `u`. -/
def row (Ns u : ℕ) : Comp → ℕ
  | .f i => if u < Ns then 3 * u + i else 11 * Ns + 3 * (u - Ns) + i
  | .t i => 3 * Ns + 3 * u + i
  | .s p => 6 * Ns + 5 * u + p

/-- The symmetric traceless matrix whose `five` is the `p`-th unit vector (see
`five_basis5`). -/
noncomputable def basis5 (p : Fin 5) : Fin 3 → Fin 3 → ℝ :=
  let h := Real.sqrt 3
  match p with
  | 0 => ![![(h + 1) / (2 * h), 0, 0], ![0, -(h - 1) / (2 * h), 0], ![0, 0, -1 / h]]
  | 1 => ![![0, 1 / Real.sqrt 2, 0], ![1 / Real.sqrt 2, 0, 0], ![0, 0, 0]]
  | 2 => ![![-(h - 1) / (2 * h), 0, 0], ![0, (h + 1) / (2 * h), 0], ![0, 0, -1 / h]]
  | 3 => ![![0, 0, 1 / Real.sqrt 2], ![0, 0, 0], ![1 / Real.sqrt 2, 0, 0]]
  | 4 => ![![0, 0, 0], ![0, 0, 1 / Real.sqrt 2], ![0, 1 / Real.sqrt 2, 0]]

/-- Response of kind `l1` to the component `c` of the load on the other sphere. -/
noncomputable def respTo (a b : ℝ) (l1 : Load) (c : Comp) (r : Fin 3 → ℝ) : ℝ :=
  match c with
  | .f j => response a b l1 (.force j) r
  | .t j => response a b l1 (.torque j) r
  | .s q => ∑ j, ∑ k, basis5 q j k * response a b l1 (.stress j k) r

/-- Component `c1` of the motion of a sphere of radius `a` at displacement `r` from a sphere of
radius `b` with unit load component `c2` (times `8 pi mu`). -/
noncomputable def pairMob (a b : ℝ) (c1 c2 : Comp) (r : Fin 3 → ℝ) : ℝ :=
  match c1 with
  | .f i => respTo a b (.force i) c2 r
  | .t i => respTo a b (.torque i) c2 r
  | .s p => five (fun i j => respTo a b (.stress i j) c2 r) p

/-- Mobility of an isolated sphere: Stokes' and Einstein's laws. -/
noncomputable def selfMob (mu a : ℝ) (c1 c2 : Comp) : ℝ :=
  match c1, c2 with
  | .f i, .f j => if i = j then 1 / (6 * Real.pi * mu * a) else 0
  | .t i, .t j => if i = j then 1 / (8 * Real.pi * mu * a ^ 3) else 0
  | .s p, .s q => if p = q then 1 / (20 / 3 * Real.pi * mu * a ^ 3) else 0
  | _, _ => 0

/-- The displacement used for two spheres of radii `a`, `b`: their true displacement, stretched to
2.001 average radii if they are closer. -/
noncomputable def sep (r : Fin 3 → ℝ) (a b : ℝ) : Fin 3 → ℝ :=
  if len r < 2.001 * ((a + b) / 2) then fun i => 2.001 * ((a + b) / 2) / len r * r i else r

/-- The mobility of a system of beads with the given centres and radii: isolated spheres plus, for each
pair of distinct beads, the Faxén response. If `bb` is false, dumbbell beads ignore each other. -/
noncomputable def systemMob (Ns : ℕ) (bb : Bool) (centre : ℕ → Fin 3 → ℝ) (radius : ℕ → ℝ) (mu : ℝ)
    (x : ℕ) (c1 : Comp) (y : ℕ) (c2 : Comp) : ℝ :=
  if x = y then selfMob mu (radius x) c1 c2
  else if bb = false ∧ Ns ≤ x ∧ Ns ≤ y then 0
  else 1 / (8 * Real.pi * mu) * pairMob (radius x) (radius y) c1 c2
    (sep (fun i => centre x i - centre y i) (radius x) (radius y))

end SD.Spec
