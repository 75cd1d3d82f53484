import Verif.Spec.Motion
import Mathlib.Analysis.SpecialFunctions.Trigonometric.Inverse

/-!
# Specification of pictures

Written without reference to the model.
-/

set_option autoImplicit false

namespace SD.Spec

/-- The unit vector towards a camera at the given elevation above the horizontal plane and azimuth, both in
degrees. -/
noncomputable def toCamera (elev azim : ℝ) : Fin 3 → ℝ :=
  let e := elev / 180 * Real.pi
  let a := azim / 180 * Real.pi
  ![Real.cos e * Real.cos a, Real.cos e * Real.sin a, Real.sin e]

/-- The disc of radius `r` about `p` that faces the direction `c`: what is seen of a sphere from far away. -/
def facingDisc (c p : Fin 3 → ℝ) (r : ℝ) : Set (Fin 3 → ℝ) :=
  {q | dotp (fun k => q k - p k) c = 0 ∧ ∑ k, (q k - p k) ^ 2 ≤ r ^ 2}

/-- The slab in which arrows of forces are drawn. -/
def InSlab (x : Fin 3 → ℝ) : Prop := -1 < x 1 ∧ x 1 < 1 / 20

open Classical in
/-- The number of spheres up to and including number `i` that are in the slab and have a force. -/
noncomputable def arrowsUpTo (pos f : ℕ → Fin 3 → ℝ) (i : ℕ) : ℕ :=
  ((Finset.range (i + 1)).filter fun j => f j ≠ 0 ∧ InSlab (pos j)).card

/-- `m` is the largest component of the vectors `f i` and `g i`, `i < n`. -/
def LargestComponent (n : ℕ) (f g : ℕ → Fin 3 → ℝ) (m : ℝ) : Prop :=
  (∃ i < n, ∃ k, m = f i k ∨ m = g i k) ∧ ∀ i < n, ∀ k, f i k ≤ m ∧ g i k ≤ m

end SD.Spec
