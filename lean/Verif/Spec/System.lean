import Verif.Model.Layout
import Verif.Spec.FarField

/-!
# Specification of the beads of a configuration

Bead `u` is sphere `u` if `u < Ns`; dumbbell `d` contributes the beads `Ns + d` (its first bead, half
the bead displacement before the centre) and `Ns + Nd + d` (its second bead, half after it).
-/

set_option autoImplicit false

namespace SD.Spec

/-- Centre of bead `u`. -/
noncomputable def centre (P : PosData) (u : ℕ) : Fin 3 → ℝ := fun i =>
  if u < P.Ns then P.spherePos u i
  else if u < P.Ns + P.Nd then P.dumbPos (u - P.Ns) i - P.dumbDx (u - P.Ns) i / 2
  else P.dumbPos (u - (P.Ns + P.Nd)) i + P.dumbDx (u - (P.Ns + P.Nd)) i / 2

/-- Radius of bead `u`. -/
def radius (P : PosData) (u : ℕ) : ℝ :=
  if u < P.Ns then P.sphereSize u
  else if u < P.Ns + P.Nd then P.dumbSize (u - P.Ns)
  else P.dumbSize (u - (P.Ns + P.Nd))

/-- Number of beads. -/
def beads (P : PosData) : ℕ := P.Ns + 2 * P.Nd

/-- Side length of the grand matrices. -/
def side (P : PosData) : ℕ := 11 * P.Ns + 6 * P.Nd

/-- Physically sensible input: positive radii, and distinct beads more than `1e-8` apart. -/
structure Sensible (P : PosData) : Prop where
  radius_pos : ∀ x < beads P, 0 < radius P x
  apart : ∀ x < beads P, ∀ y < beads P, x ≠ y →
    1 / 10 ^ 8 < len fun i => centre P x i - centre P y i

/-- The configuration moved by `t`. -/
noncomputable def shift (P : PosData) (t : Fin 3 → ℝ) : PosData :=
  { P with spherePos := fun i k => P.spherePos i k + t k, dumbPos := fun i k => P.dumbPos i k + t k }

/-- The configuration with spheres renumbered by `σ` and dumbbells by `τ`. -/
def relabel (P : PosData) (σ τ : ℕ → ℕ) : PosData :=
  { P with
    sphereSize := fun i => P.sphereSize (σ i)
    spherePos := fun i => P.spherePos (σ i)
    dumbSize := fun i => P.dumbSize (τ i)
    dumbPos := fun i => P.dumbPos (τ i)
    dumbDx := fun i => P.dumbDx (τ i) }

/-- The renumbering of beads that goes with renumbering spheres and dumbbells. -/
def beadMap (Ns Nd : ℕ) (σ τ : ℕ → ℕ) (u : ℕ) : ℕ :=
  if u < Ns then σ u
  else if u < Ns + Nd then Ns + τ (u - Ns)
  else Ns + Nd + τ (u - (Ns + Nd))

end SD.Spec
