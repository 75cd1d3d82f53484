import Verif.Model.R2B
import Verif.Model.ClosePairsPeriodic
import Verif.Model.Ewald
import Verif.Model.Frame

/-!
# The near field in a periodic box, and the run with both generators for periodic boxes
-/

set_option autoImplicit false

namespace SD

/-- `generate_R2Bexact` with a box: `functions/generate_R2Bexact.py` lines 260-337. The neighbours come from the
periodic branch of `close_particles` (lines 300-303); the loop and the change of coordinates are those of an
unbounded domain. `none` is a singular box or a failed lookup of a size ratio. -/
noncomputable def generate_R2Bexact_periodic (T : ScalarTable) (P : PosData) (cutoff_factor mu : ℝ)
    (bl tr Ot : Vec3) (Et : Mat3) (bb : Bool) : Option NDMat := do
  let ps ← close_particles_periodic (P.Ns + 2 * P.Nd) P.beadPos P.beadSize cutoff_factor bl tr Ot Et
  R2BexactOfPairs T P mu bb ps

/-- The world with the two generators for periodic boxes as they are in the code:
`functions/generate_grand_resistance_matrix.py` lines 154-157 and 183-187. `n` is the number of layers of image
boxes (`settings.py` line 94). -/
noncomputable def boxWorld (n : ℕ) (T : ScalarTable)
    (input : Config → ℝ → ℝ → Vel → Option NDMat → Option UserInput) (bb : Bool) : World where
  table := T
  input_ftsuoe := input
  Minfinity_periodic := fun P bl tr mu Ot Et => Ewald.generate_Minfinity_periodic n P bl tr mu Ot Et bb
  R2Bexact_periodic := fun P k mu bl tr Ot Et => generate_R2Bexact_periodic T P k mu bl tr Ot Et bb

end SD
