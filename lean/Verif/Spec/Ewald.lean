import Verif.Spec.FarField
import Mathlib.MeasureTheory.Integral.Bochner.Set
import Mathlib.MeasureTheory.Measure.Lebesgue.Basic
import Mathlib.Topology.ContinuousOn

/-!
# Specification of hydrodynamic interactions in a periodic box

Written from the physics, without reference to the model. The flow of a periodic array of point forces is split
(Hasimoto, Beenakker) into a screened part, summed over images in real space, and a smooth part, summed over
waves. `response` of `Spec.FarField` is restated for an arbitrary Green's function.
-/

set_option autoImplicit false

namespace SD.Spec

/-- The complementary error function. -/
noncomputable def cerf (x : ℝ) : ℝ := 2 / Real.sqrt Real.pi * ∫ t in Set.Ioi x, Real.exp (-t ^ 2)

/-- The screened distance `r erfc(lam r)`. -/
noncomputable def screened (lam : ℝ) (r : Fin 3 → ℝ) : ℝ := len r * cerf (lam * len r)

/-- The Stokes operator `delta_ij lap - d_i d_j` makes a divergence-free tensor field of a scalar field. With
the distance it makes the Oseen tensor. -/
noncomputable def stokesOp (f : (Fin 3 → ℝ) → ℝ) (i j : Fin 3) (r : Fin 3 → ℝ) : ℝ :=
  dlt i j * lap f r - pd i (pd j f) r

/-- The real-space part of the Green's function. -/
noncomputable def nearJ (lam : ℝ) (i j : Fin 3) (r : Fin 3 → ℝ) : ℝ := stokesOp (screened lam) i j r

/-- Scalar product. -/
noncomputable def inner3 (x y : Fin 3 → ℝ) : ℝ := ∑ i, x i * y i

/-- Strength of the wave `k` in the smooth part: the transverse projection times
`8 pi / k^2 (1 + k^2/4 lam^2 + k^4/8 lam^4) exp(-k^2/4 lam^2)`. -/
noncomputable def waveJ (lam : ℝ) (i j : Fin 3) (k : Fin 3 → ℝ) : ℝ :=
  (dlt i j - k i * k j / len k ^ 2) * (8 * Real.pi / len k ^ 2
    * (1 + len k ^ 2 / (4 * lam ^ 2) + len k ^ 4 / (8 * lam ^ 4)) * Real.exp (-(len k ^ 2 / (4 * lam ^ 2))))

/-- The sum over images of the screened part. -/
noncomputable def imageSum (lam : ℝ) (X : List (Fin 3 → ℝ)) (i j : Fin 3) (r : Fin 3 → ℝ) : ℝ :=
  (X.map fun x => nearJ lam i j (fun m => r m + x m)).sum

/-- The sum over waves of the smooth part, in a box of volume `V`. -/
noncomputable def waveSum (lam V : ℝ) (K : List (Fin 3 → ℝ)) (i j : Fin 3) (r : Fin 3 → ℝ) : ℝ :=
  1 / V * (K.map fun k => Real.cos (inner3 k r) * waveJ lam i j k).sum

/-- The Green's function of the periodic box: images `X`, waves `K`. -/
noncomputable def boxJ (lam V : ℝ) (X K : List (Fin 3 → ℝ)) (i j : Fin 3) (r : Fin 3 → ℝ) : ℝ :=
  imageSum lam X i j r + waveSum lam V K i j r

/-! ## Response through a Green's function -/

/-- A Green's function: component `i` of the flow of a unit point force in direction `j`. -/
abbrev Green := Fin 3 → Fin 3 → (Fin 3 → ℝ) → ℝ

/-- The flow of a point load. -/
noncomputable def source (G : Green) (ld : Load) (m : Fin 3) (r : Fin 3 → ℝ) : ℝ :=
  match ld with
  | .force j => G m j r
  | .torque j => -(1 / 2) * ∑ k, ∑ l, eps j k l * pd k (G m l) r
  | .stress j k => -(1 / 2) * (pd k (G m j) r + pd j (G m k) r)

/-- The velocity, angular velocity or rate of strain of a flow at a point. -/
noncomputable def receive (ld : Load) (u : Fin 3 → (Fin 3 → ℝ) → ℝ) (r : Fin 3 → ℝ) : ℝ :=
  match ld with
  | .force i => u i r
  | .torque i => 1 / 2 * ∑ k, ∑ l, eps i k l * pd k (u l) r
  | .stress i j => 1 / 2 * (pd j (u i) r + pd i (u j) r)

/-- Faxén's coefficient: how much of `radius² lap` a sphere adds to its point load or response. -/
noncomputable def sized : Load → ℝ
  | .force _ => 1 / 6
  | .torque _ => 0
  | .stress _ _ => 1 / 10

/-- Response of kind `l1` of a sphere of radius `a` to the load `l2` on a sphere of radius `b` at relative
displacement `r`, to first order in the Laplacian (in open space the higher orders vanish, see
`greenResponse_oseen`). -/
noncomputable def greenResponse (G : Green) (a b : ℝ) (l1 l2 : Load) (r : Fin 3 → ℝ) : ℝ :=
  receive l1 (source G l2) r
    + (sized l1 * a ^ 2 + sized l2 * b ^ 2) * receive l1 (source (fun i j => lap (G i j)) l2) r

/-! ## A particle and its own images -/

/-- The mobility of an isolated sphere, for Cartesian loads. -/
noncomputable def isolated (mu a : ℝ) : Load → Load → ℝ
  | .force i, .force j => if i = j then 1 / (6 * Real.pi * mu * a) else 0
  | .torque i, .torque j => if i = j then 1 / (8 * Real.pi * mu * a ^ 3) else 0
  | .stress i j, .stress k l => (1 / 2 * (dlt i k * dlt j l + dlt i l * dlt j k) - 1 / 3 * (dlt i j * dlt k l))
      / (20 / 3 * Real.pi * mu * a ^ 3)
  | _, _ => 0

/-- What the images of a sphere of radius `a` add to its response to a load on itself is `v`. -/
def ImagesAdd (lam V : ℝ) (X K : List (Fin 3 → ℝ)) (a b : ℝ) (l1 l2 : Load) (v : ℝ) : Prop :=
  Filter.Tendsto (fun r => greenResponse (boxJ lam V X K) a b l1 l2 r - response a b l1 l2 r) (nhdsWithin 0 {0}ᶜ) (nhds v)

/-! ## Components -/

/-- Response of kind `l1` to the component `c` of the load on the other sphere, through `G`. -/
noncomputable def greenTo (G : Green) (a b : ℝ) (l1 : Load) (c : Comp) (r : Fin 3 → ℝ) : ℝ :=
  match c with
  | .f j => greenResponse G a b l1 (.force j) r
  | .t j => greenResponse G a b l1 (.torque j) r
  | .s q => ∑ j, ∑ k, basis5 q j k * greenResponse G a b l1 (.stress j k) r

/-- Component `c1` of the motion of a sphere of radius `a` at displacement `r` from a sphere of radius `b` with
unit load component `c2`, through `G` (times `8 pi mu`). -/
noncomputable def greenMob (G : Green) (a b : ℝ) (c1 c2 : Comp) (r : Fin 3 → ℝ) : ℝ :=
  match c1 with
  | .f i => greenTo G a b (.force i) c2 r
  | .t i => greenTo G a b (.torque i) c2 r
  | .s p => five (fun i j => greenTo G a b (.stress i j) c2 r) p

/-- What the images of a sphere add to the component `c1` of its own motion under the load component `c2` is `v`. -/
def ImagesAddComp (lam V : ℝ) (X K : List (Fin 3 → ℝ)) (a b : ℝ) (c1 c2 : Comp) (v : ℝ) : Prop :=
  Filter.Tendsto (fun r => greenMob (boxJ lam V X K) a b c1 c2 r - pairMob a b c1 c2 r) (nhdsWithin 0 {0}ᶜ) (nhds v)

/-- Distinct beads are, after the stretching of close pairs, more than `1e-10` from each other's images. -/
def ImagesApart (X : List (Fin 3 → ℝ)) (centre : ℕ → Fin 3 → ℝ) (radius : ℕ → ℝ) (n : ℕ) : Prop :=
  ∀ x < n, ∀ y < n, x ≠ y → ∀ v ∈ X,
    1 / 10 ^ 10 < len fun i => sep (fun i => centre x i - centre y i) (radius x) (radius y) i + v i

end SD.Spec
