import Mathlib.Topology.Algebra.InfiniteSum.Defs
import Mathlib.Analysis.SpecialFunctions.Pow.Real
import Mathlib.Analysis.Calculus.Deriv.Basic
import Mathlib.MeasureTheory.Integral.IntervalIntegral.Basic
import Mathlib.Analysis.SpecialFunctions.Trigonometric.Basic
import Mathlib.Data.Fin.VecNotation

/-!
# Specification: two spheres that turn about their line of centres

The fluid then only swirls about the line. A swirl `strength * (distance from the line) / (distance from a point of the line)^3`
is a Stokes flow without pressure, and is that of a torque `8 pi mu * strength` at the point. The flow around two spheres is found by adding image after image of the first such swirl.
-/

set_option autoImplicit false

namespace SD.Spec

/-- A swirl in one of the spheres: its strength, and how far from the centre of the sphere it is, towards the other. -/
structure Rotlet where
  strength : ℝ
  offset : ℝ

/-- The image of a swirl in the other sphere, of radius `rho`, if the centres are `r` apart. -/
noncomputable def Rotlet.image (rho r : ℝ) (q : Rotlet) : Rotlet where
  strength := -q.strength * (rho / (r - q.offset)) ^ 3
  offset := rho ^ 2 / (r - q.offset)

/-- The image of the image, in the sphere of radius `a` that the swirl was in; the other has the radius `b`. -/
noncomputable def Rotlet.back (a b r : ℝ) (q : Rotlet) : Rotlet := (q.image b r).image a r

/-- The swirls in sphere 1, of radius `a`, if it turns with unit angular velocity and sphere 2 is held. -/
noncomputable def ownImages (a b r : ℝ) (k : ℕ) : Rotlet := (Rotlet.back a b r)^[k] ⟨a ^ 3, 0⟩

/-- The swirls in sphere 2 if sphere 1 turns. -/
noncomputable def farImages (a b r : ℝ) (k : ℕ) : Rotlet := (ownImages a b r k).image b r

/-- The angular velocity of the fluid about the line, due to a swirl at the height `z` on the line, at the height `w` and at
the distance `h` from the line. -/
noncomputable def whirl (strength z h w : ℝ) : ℝ := strength / (h ^ 2 + (w - z) ^ 2) ^ (3 / 2 : ℝ)

/-- The velocity of the fluid due to a swirl: it turns about the line with the angular velocity `whirl`. -/
noncomputable def swirlFlow (strength z x y w : ℝ) : Fin 3 → ℝ :=
  ![-whirl strength z √(x ^ 2 + y ^ 2) w * y, whirl strength z √(x ^ 2 + y ^ 2) w * x, 0]

/-- A velocity field is a Stokes flow without pressure at a point: it has no divergence and each component no Laplacian. -/
def FlowsFreely (u : ℝ → ℝ → ℝ → Fin 3 → ℝ) (x y w : ℝ) : Prop :=
  deriv (fun t => u t y w 0) x + deriv (fun t => u x t w 1) y + deriv (fun t => u x y t 2) w = 0 ∧
  ∀ i, deriv (deriv fun t => u t y w i) x + deriv (deriv fun t => u x t w i) y + deriv (deriv fun t => u x y t i) w = 0

/-- A function can be differentiated twice at a point. -/
def Twice (f : ℝ → ℝ) (t : ℝ) : Prop := (∀ᶠ v in nhds t, DifferentiableAt ℝ f v) ∧ DifferentiableAt ℝ (deriv f) t

/-- A velocity field can be differentiated twice at a point, along each axis. -/
def Smooth (u : ℝ → ℝ → ℝ → Fin 3 → ℝ) (x y w : ℝ) : Prop :=
  ∀ i, Twice (fun t => u t y w i) x ∧ Twice (fun t => u x t w i) y ∧ Twice (fun t => u x y t i) w

/-- The fluid around the spheres, and the fluid together with their surfaces. -/
def InFluid (a b r x y w : ℝ) : Prop := a ^ 2 < x ^ 2 + y ^ 2 + w ^ 2 ∧ b ^ 2 < x ^ 2 + y ^ 2 + (w - r) ^ 2
def NotInside (a b r x y w : ℝ) : Prop := a ^ 2 ≤ x ^ 2 + y ^ 2 + w ^ 2 ∧ b ^ 2 ≤ x ^ 2 + y ^ 2 + (w - r) ^ 2

/-- The torque about the line that a swirling flow, the same all round, exerts on a sphere of radius `R` around the height `c`
on the line: at the angle `th` from the line there is the stress `mu R d/dR (u / R)`, where `u` is the velocity, at the
distance `R sin th` from the line, on rings of area `2 pi R^2 sin th`. -/
noncomputable def fluidTorque (mu : ℝ) (u : ℝ → ℝ → ℝ → Fin 3 → ℝ) (c R : ℝ) : ℝ :=
  ∫ th in (0)..Real.pi, mu * R * deriv (fun t => u (t * Real.sin th) 0 (c + t * Real.cos th) 1 / t) R
    * (R * Real.sin th) * (2 * Real.pi * R ^ 2 * Real.sin th)

/-- What images number `k` in both spheres add to the angular velocity of the fluid. The centre of sphere 1 is at the height
0 and that of sphere 2 at the height `r`. -/
noncomputable def spinBoth (a b r h w : ℝ) (k : ℕ) : ℝ :=
  whirl (ownImages a b r k).strength (ownImages a b r k).offset h w
    + whirl (farImages a b r k).strength (r - (farImages a b r k).offset) h w

/-- All images, with their heights on the line: those in sphere 1 and those in sphere 2. -/
noncomputable def allImages (a b r : ℝ) : ℕ ⊕ ℕ → Rotlet
  | .inl k => ownImages a b r k
  | .inr k => ⟨(farImages a b r k).strength, r - (farImages a b r k).offset⟩

/-- The velocity of the fluid around sphere 1, turning with unit angular velocity, and sphere 2, held. -/
noncomputable def turningFlow (a b r x y w : ℝ) (i : Fin 3) : ℝ :=
  ∑' k, swirlFlow (allImages a b r k).strength (allImages a b r k).offset x y w i

/-- The torques that turn spheres with angular velocities 1 and 0, in units of `8 pi mu`: on sphere 1 and on sphere 2. -/
noncomputable def ownTorque (a b r : ℝ) : ℝ := ∑' k, (ownImages a b r k).strength
noncomputable def farTorque (a b r : ℝ) : ℝ := ∑' k, (farImages a b r k).strength

end SD.Spec
