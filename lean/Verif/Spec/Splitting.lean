import Verif.Spec.Layers

/-!
# Specification of the Green's function of an infinite periodic array
-/

set_option autoImplicit false

namespace SD.Spec

/-- The Green's function of the infinite array: a screened part summed over all images and a smooth part summed over
all waves, in a box of volume `V`. -/
noncomputable def arrayGreen (lam V : ℝ) (B : Fin 3 → Fin 3 → ℝ) : Green := fun i j r =>
  ∑' v : {v // InLattice B v}, nearJ lam i j (fun m => r m + v.1 m)
    + 1 / V * ∑' k : {k // IsWave B k}, Real.cos (inner3 k.1 r) * waveJ lam i j k.1

end SD.Spec
