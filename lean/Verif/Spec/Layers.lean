import Verif.Spec.Ewald
import Verif.Spec.Motion
import Mathlib.Topology.Algebra.InfiniteSum.Basic

/-!
# Specification of the hydrodynamic interactions in an infinite periodic array

The sums over images and over waves run over whole lattices, with no cut-off. They are written in terms of the
lattices alone, not of the vectors chosen to generate them.
-/

set_option autoImplicit false

namespace SD.Spec

/-- `u n` tends to `l` with an error below every power of `1 / n`. -/
def RapidTo (u : ℕ → ℝ) (l : ℝ) : Prop := ∀ p : ℕ, ∃ C, ∀ n : ℕ, 1 ≤ n → |u n - l| ≤ C / (n : ℝ) ^ p

/-- The wave vectors with the periods of the box, except zero. -/
def IsWave (B : Fin 3 → Fin 3 → ℝ) (k : Fin 3 → ℝ) : Prop :=
  k ≠ 0 ∧ ∀ v, InLattice B v → ∃ z : ℤ, inner3 k v = 2 * Real.pi * z

/-- A single wave of the smooth part. -/
noncomputable def oneWave (lam : ℝ) (k : Fin 3 → ℝ) : Green := fun i j r => Real.cos (inner3 k r) * waveJ lam i j k

/-- The response through all images. -/
noncomputable def imagesResp (lam : ℝ) (B : Fin 3 → Fin 3 → ℝ) (a b : ℝ) (l1 l2 : Load) (r : Fin 3 → ℝ) : ℝ :=
  ∑' v : {v // InLattice B v}, greenResponse (nearJ lam) a b l1 l2 fun m => r m + v.1 m

/-- The response through all waves, in a box of volume `V`. -/
noncomputable def wavesResp (lam V : ℝ) (B : Fin 3 → Fin 3 → ℝ) (a b : ℝ) (l1 l2 : Load) (r : Fin 3 → ℝ) : ℝ :=
  1 / V * ∑' k : {k // IsWave B k}, greenResponse (oneWave lam k.1) a b l1 l2 r

/-- The response in the infinite array. -/
noncomputable def arrayResp (lam V : ℝ) (B : Fin 3 → Fin 3 → ℝ) (a b : ℝ) (l1 l2 : Load) (r : Fin 3 → ℝ) : ℝ :=
  imagesResp lam B a b l1 l2 r + wavesResp lam V B a b l1 l2 r

/-- Component `c1` of the motion due to the load component `c2`, when `R l1 l2` is the response of kind `l1` to the
load `l2`. -/
noncomputable def mobOf (R : Load → Load → ℝ) (c1 c2 : Comp) : ℝ :=
  let under := fun l1 => match c2 with
    | .f j => R l1 (.force j)
    | .t j => R l1 (.torque j)
    | .s q => ∑ j, ∑ k, basis5 q j k * R l1 (.stress j k)
  match c1 with
  | .f i => under (.force i)
  | .t i => under (.torque i)
  | .s p => five (fun i j => under (.stress i j)) p

/-- The motion in the infinite array (times `8 pi mu`). -/
noncomputable def arrayMob (lam V : ℝ) (B : Fin 3 → Fin 3 → ℝ) (a b : ℝ) (c1 c2 : Comp) (r : Fin 3 → ℝ) : ℝ :=
  mobOf (fun l1 l2 => arrayResp lam V B a b l1 l2 r) c1 c2

/-- The motion through the images alone. -/
noncomputable def imagesMob (lam : ℝ) (B : Fin 3 → Fin 3 → ℝ) (a b : ℝ) (c1 c2 : Comp) (r : Fin 3 → ℝ) : ℝ :=
  mobOf (fun l1 l2 => imagesResp lam B a b l1 l2 r) c1 c2

/-- Where the two sums are split, for a box with sides `d`. -/
noncomputable def splitting (d : Fin 3 → ℝ) : ℝ := Real.sqrt Real.pi / (d 0 * d 1 * d 2) ^ (1 / 3 : ℝ)

/-- What the infinitely many images of a sphere add to its own motion is `v`. -/
def ArrayAdds (lam V : ℝ) (B : Fin 3 → Fin 3 → ℝ) (a b : ℝ) (c1 c2 : Comp) (v : ℝ) : Prop :=
  Filter.Tendsto (fun r => arrayMob lam V B a b c1 c2 r - pairMob a b c1 c2 r) (nhdsWithin 0 {0}ᶜ) (nhds v)

end SD.Spec
