import Verif.Model.Nearfield
import Verif.Spec.TwoSphere
import Mathlib.Topology.Order.Basic
import Mathlib.Topology.Instances.Real.Lemmas

/-!
# Specification of the lubrication functions

Two spheres of radius `a` and `b`, the second at distance `(a + b) (2 + xi) / 2` from the first in the direction
`d`.
-/

set_option autoImplicit false

namespace SD.Spec

open SD.Nearfield

/-- The eleven functions for the sphere's own motion. -/
noncomputable def nfOwn (xi lam : ℝ) : Scalars where
  XA := X11A xi lam
  YA := Y11A xi lam
  YB := Y11B xi lam
  XC := X11C xi lam
  YC := Y11C xi lam
  XG := X11G xi lam
  YG := Y11G xi lam
  YH := Y11H xi lam
  XM := X11M xi lam
  YM := Y11M xi lam
  ZM := Z11M xi lam

/-- The eleven functions for the neighbour's motion. -/
noncomputable def nfOther (xi lam : ℝ) : Scalars where
  XA := X12A xi lam
  YA := Y12A xi lam
  YB := Y12B xi lam
  XC := X12C xi lam
  YC := Y12C xi lam
  XG := X12G xi lam
  YG := Y12G xi lam
  YH := Y12H xi lam
  XM := X12M xi lam
  YM := Y12M xi lam
  ZM := Z12M xi lam

/-- Force, torque and stresslet on sphere `x` of the pair, for velocities `U`, angular velocities `O` and strain
rates `E`, by the near-field formulas of the simulation. -/
noncomputable def gapLoad (a b : ℝ) (d : Fin 3 → ℝ) (U O : Fin 2 → Fin 3 → ℝ) (E : Fin 2 → Fin 3 → Fin 3 → ℝ)
    (xi : ℝ) (x : Fin 2) (c : Comp) : ℝ :=
  let N := twoNear ![nfOwn xi (b / a), nfOwn xi (a / b)] ![nfOther xi (b / a), nfOther xi (a / b)] ![a, b] d
  ∑ y, ((∑ j, N x y c (.f j) * U y j) + (∑ j, N x y c (.t j) * O y j) + ∑ q, N x y c (.s q) * five (E y) q)

/-- Where the spheres are, seen from the first. -/
noncomputable def gapCentre (a b : ℝ) (d : Fin 3 → ℝ) (xi : ℝ) : Fin 2 → Fin 3 → ℝ :=
  ![fun _ => 0, fun i => (a + b) * (2 + xi) / 2 * d i]

/-- Velocity at `x` in a linear flow: translation, rotation and strain. -/
def linearFlow (V w : Fin 3 → ℝ) (E : Fin 3 → Fin 3 → ℝ) (x : Fin 3 → ℝ) (i : Fin 3) : ℝ :=
  V i + cross w x i + app E x i

/-- The loads on the pair when it is held in a linear flow, or moves as a rigid body in one: `V`, `w` and `E` are
the flow relative to the pair. -/
noncomputable def flowLoad (a b : ℝ) (d V w : Fin 3 → ℝ) (E : Fin 3 → Fin 3 → ℝ) (xi : ℝ) (x : Fin 2)
    (c : Comp) : ℝ :=
  gapLoad a b d (fun y => linearFlow V w E (gapCentre a b d xi y)) (fun _ => w) (fun _ => E) xi x c

open Filter Topology in
/-- `f` has a finite limit as the gap closes. -/
def Settles (f : ℝ → ℝ) : Prop := ∃ L, Tendsto f (𝓝[>] 0) (𝓝 L)

open Filter Topology in
/-- `f` has a finite limit with a finite slope as the gap closes. -/
def SettlesSmoothly (f : ℝ → ℝ) : Prop :=
  ∃ L K, Tendsto f (𝓝[>] 0) (𝓝 L) ∧ Tendsto (fun xi => (f xi - L) / xi) (𝓝[>] 0) (𝓝 K)

end SD.Spec
