import Verif.Spec.System
import Mathlib.Analysis.SpecialFunctions.Exp

/-!
# Specification of the repulsion force

Mari et al.: a soft exponential repulsion between close beads, constant once they overlap.
-/

set_option autoImplicit false

namespace SD.Spec

/-- Separation vector from bead `v` to bead `u`. -/
noncomputable def away (P : PosData) (u v : ℕ) : Fin 3 → ℝ := fun k => centre P u k - centre P v k

/-- Distance between the centres of two beads in units of their mean radius. -/
noncomputable def gapRatio (P : PosData) (u v : ℕ) : ℝ :=
  len (away P u v) / ((radius P u + radius P v) / 2)

/-- Two beads feel each other when they are not coincident and closer than 2.2 mean radii. -/
def Feels (P : PosData) (u v : ℕ) : Prop := 0 < gapRatio P u v ∧ gapRatio P u v < 22 / 10

/-- Size of the repulsion between two beads: harmonic-mean radius times an exponential of the gap, with
the gap counted as zero when the beads overlap. -/
noncomputable def pushSize (strength tau : ℝ) (P : PosData) (u v : ℕ) : ℝ :=
  strength * (2 * radius P u * radius P v / (radius P u + radius P v))
    * Real.exp (-tau * max 0 (gapRatio P u v - 2))

open Classical in
/-- Force on bead `u` because of bead `v`: along the line of centres, away from `v`. -/
noncomputable def push (strength tau : ℝ) (P : PosData) (u v : ℕ) : Fin 3 → ℝ := fun k =>
  if Feels P u v then pushSize strength tau P u v * (away P u v k / len (away P u v)) else 0

/-- Total repulsion on bead `u`. -/
noncomputable def pushTotal (strength tau : ℝ) (P : PosData) (u : ℕ) : Fin 3 → ℝ := fun k =>
  ∑ v ∈ Finset.range (beads P), push strength tau P u v k

end SD.Spec
