import Verif.Spec.Progress
import Verif.Spec.Nearby
import Verif.Props.Step
import Mathlib.Analysis.Calculus.Deriv.Basic

/-!
# Specification: the motion that the time stepping approximates
-/

set_option autoImplicit false

namespace SD.Spec

/-- No two beads are as near as 2.001 average radii. -/
def Loose (P : PosData) : Prop :=
  ∀ x < beads P, ∀ y < beads P, x ≠ y →
    2.001 * ((radius P x + radius P y) / 2) < len (fun i => centre P x i - centre P y i)

/-- The settings with another time step. -/
def stepped (S : Settings) (h : ℝ) : Settings := { S with timestep := h }

/-- The input function gives the same answer `u` wherever the particles of `c` are, and at all times; only the strain and
the turn that the background flow has accumulated, which matter in periodic boxes alone, may change. -/
def Unchanging (W : World) (c : Config) (u : UserInput) : Prop :=
  ∀ d f dt v r, SameSizes c d → ∃ Ot Et, W.input_ftsuoe d f dt v r = some { u with Ot := Ot, Et := Et }

/-- A motion in continuous time: from the places of `c`, at every time up to `T` every sphere `i` has the place `X t i`
and the velocity that the solver finds for the spheres in these places (with the far field of these places). No two
spheres ever touch or are exactly at the range of the near field. -/
structure Follows (W : World) (S : Settings) (c : Config) (T : ℝ) (X : ℝ → ℕ → Vec3) : Prop where
  starts : ∀ i < c.P.Ns, X 0 i = c.P.spherePos i
  moves : ∀ t ∈ Set.Icc 0 T, ∃ d st, SameSizes c d ∧ (∀ i < c.P.Ns, d.P.spherePos i = X t i) ∧
    Loose d.P ∧ (S.use_Minfinity_only = false → ¬ AtRange S.cutoff_factor d.P) ∧
    generate_output_FTSUOE W S d 0 (NDMat.zeros 1 1) true Vel.blank = some st ∧
    ∀ i < c.P.Ns, HasDerivWithinAt (fun t => X t i) (sphereVel st i (X t i)) (Set.Icc 0 T) t

/-- The settings with another scheme, another interval between inversions of the far field, and another choice of
inverting it in every Runge-Kutta stage. -/
def retimed (S : Settings) (sch : Scheme) (q : ℕ) (e : Bool) : Settings :=
  { S with scheme := sch, invert_m_every := q, rk4_each_stage := e }

/-- Runs up to the time `T` in `n` equal steps follow the motion `X`: for all large `n` they go through, and at all their
frames all their spheres are within a constant times `1 / n` of it. -/
def Tracks (W : World) (S : Settings) (c : Config) (T : ℝ) (X : ℝ → ℕ → Vec3) : Prop :=
  ∃ (C : ℝ) (n0 : ℕ), ∀ n ≥ n0, ∀ m ≤ n, ∀ bl tr : Vec3, bl = tr →
    ∃ s, runFrames W (stepped S (T / n)) bl tr (State.fresh c) m = some s ∧ s.error = false ∧
      ∀ i < c.P.Ns, ∀ k, |s.posdata.P.spherePos i k - X (m * (T / n)) i k| ≤ C / n

end SD.Spec
