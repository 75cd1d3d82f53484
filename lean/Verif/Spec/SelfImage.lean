import Verif.Spec.Renumbered
import Verif.Spec.Isotropy
import Verif.Spec.Progress
import Mathlib.Analysis.SpecialFunctions.Trigonometric.Basic

/-!
# Specification: suspensions that look the same after a motion that may exchange particles
-/

set_option autoImplicit false

namespace SD.Spec

/-- Turned by `Q` and moved, the suspension looks the same: particle `x` is where the particle that `σ` or `τ` gives for
it comes to lie, and has its size. -/
structure SelfImage (P : PosData) (Q : Fin 3 → Fin 3 → ℝ) (σ τ : ℕ → ℕ) : Prop where
  orth : Orthogonal Q
  spheres : Reorders P.Ns σ
  dumbs : Reorders P.Nd τ
  apart : ∀ x < beads P, ∀ y < beads P, (fun k => centre P x k - centre P y k) = turnVec Q fun k =>
    centre P (beadMap P.Ns P.Nd σ τ x) k - centre P (beadMap P.Ns P.Nd σ τ y) k
  size : ∀ x < beads P, radius P (beadMap P.Ns P.Nd σ τ x) = radius P x

/-- The component `c` of particle `u` in the loads or motions `v` is `ε` times that of the turned particle. -/
def SameAt (Ns Nd : ℕ) (ε : ℝ) (Q : Fin 3 → Fin 3 → ℝ) (σ τ : ℕ → ℕ) (v : ℕ → ℝ) (u : ℕ) (c : Comp) : Prop :=
  v (row Ns u c) = ε * turnComp Q c fun d => v (row Ns (beadMap Ns Nd σ τ u) d)

/-- Loads or motions that look the same (`ε = 1`), or the opposite (`ε = -1`), after the motion. -/
def GrandSame (Ns Nd : ℕ) (ε : ℝ) (Q : Fin 3 → Fin 3 → ℝ) (σ τ : ℕ → ℕ) (v : ℕ → ℝ) : Prop :=
  ∀ u c, HasRow Ns Nd u c → SameAt Ns Nd ε Q σ τ v u c

/-- What a problem in the form `fts` or `fte` prescribes has the symmetry. -/
def GivenSame (form : InputForm) (Ns Nd : ℕ) (ε : ℝ) (Q : Fin 3 → Fin 3 → ℝ) (σ τ : ℕ → ℕ) (loads motions : ℕ → ℝ) :
    Prop :=
  ∀ u c, HasRow Ns Nd u c → match form, c with
    | .fte, .s p => SameAt Ns Nd ε Q σ τ motions u (.s p)
    | _, c => SameAt Ns Nd ε Q σ τ loads u c

/-- A rotation or reflection `Q`, an order `σ` of the spheres, and whether the problem looks the same (`ε = 1`) or the
opposite (`ε = -1`) afterwards. -/
structure Symmetry where
  Q : Fin 3 → Fin 3 → ℝ
  σ : ℕ → ℕ
  ε : ℝ

/-- Spheres whose symmetries, together with those of gravity, leave them no choice but to fall with one velocity. -/
structure Assembly (P : PosData) (G : Set Symmetry) : Prop where
  Nd : P.Nd = 0
  image : ∀ g ∈ G, SelfImage P g.Q g.σ fun i => i
  gravity : ∀ g ∈ G, ∀ k, g.ε * turnVec g.Q ![0, 0, -1] k = ![0, 0, -1] k
  only : ∀ U : ℕ → Vec3, (∀ g ∈ G, ∀ i < P.Ns, U i = fun k => g.ε * turnVec g.Q (U (g.σ i)) k) →
    ∀ i < P.Ns, ∀ j < P.Ns, U i = U j

/-- The same particles, with the same displacements between all spheres. -/
structure InStep (c d : Config) : Prop where
  sizes : SameSizes c d
  apart : ∀ i < c.P.Ns, ∀ j < c.P.Ns, ∀ k,
    d.P.spherePos i k - d.P.spherePos j k = c.P.spherePos i k - c.P.spherePos j k

/-- Two spheres and nothing else, of the same size. -/
structure Twins (P : PosData) : Prop where
  Ns : P.Ns = 2
  Nd : P.Nd = 0
  size : P.sphereSize 0 = P.sphereSize 1

/-- Spheres of one size at the corners of a regular polygon in a horizontal plane, with centre `o` and distance `r` from
the centre, listed in order, and nothing else. -/
structure Ring (P : PosData) (o : Vec3) (r : ℝ) : Prop where
  Ns : 0 < P.Ns
  Nd : P.Nd = 0
  size : ∀ i < P.Ns, P.sphereSize i = P.sphereSize 0
  corner : ∀ i < P.Ns, P.spherePos i = fun k =>
    o k + r * ![Real.cos (2 * Real.pi * i / P.Ns), Real.sin (2 * Real.pi * i / P.Ns), 0] k

end SD.Spec
