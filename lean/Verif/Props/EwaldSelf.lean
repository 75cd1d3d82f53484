import Verif.Lemmas.EwaldOpen
import Verif.Props.EwaldPair
import Verif.Lemmas.EwaldParity

/-!
# C52: a particle and its own images

The motion of a particle under its own load is the motion of an isolated particle plus what its images add. The
latter is the limit, at vanishing separation, of the response in the box minus the response in unbounded fluid.
-/

set_option autoImplicit false

namespace SD

open Spec Filter Topology

/-- The list of images contains the particle itself once, and no other image within `1e-10` of it. -/
def Proper (W : Ewald.Lattice) : Prop :=
  W.X.Perm (0 :: W.Xdash) ∧ ∀ x ∈ W.Xdash, norm3 x > 1 / 10 ^ 10

theorem imagesAdd_rest {W : Ewald.Lattice} (h : Proper W) (V a b : ℝ) (l1 l2 : Load) :
    ImagesAdd W.lamb V W.X W.K a b l1 l2 (Ewald.rest W.lamb V W.Xdash W.K a b l1 l2) := by
  refine (Ewald.box_minus_open W.lamb V h.1 (Ewald.Xdash_ne_zero W) W.K a b l1 l2).congr' ?_
  filter_upwards [self_mem_nhdsWithin] with r hr
  rw [Ewald.greenResponse_oseen a b l1 l2 hr]

/-- The limit is unique. -/
theorem imagesAdd_unique {lam V : ℝ} {X K : List Vec3} {a b : ℝ} {l1 l2 : Load} {v w : ℝ}
    (h : ImagesAdd lam V X K a b l1 l2 v) (h' : ImagesAdd lam V X K a b l1 l2 w) : v = w :=
  tendsto_nhds_unique h h'

theorem not_gt_eps : ¬ ((0 : ℝ) > eps10) := not_lt.mpr Ewald.eps10_pos.le

theorem wave_self {f : Vec3 → ℝ} {g : Vec3 → ℝ} {c : ℝ} (K : List Vec3)
    (h : ∀ k, Real.cos (Ewald.dot3 k 0) * f k = c * g k) : (K.map f).sum = c * (K.map g).sum := by
  rw [← List.sum_map_mul_left]
  congr 1
  refine List.map_congr_left fun k _ => ?_
  rw [← h k]
  simp [Ewald.dot3]

section
variable {W : Ewald.Lattice} (hW : Proper W) {a mu c : ℝ}
include hW

/-- Force and velocity of one particle. -/
theorem C52_force_force (i j : Fin 3) : ∃ v,
    ImagesAdd W.lamb (W.L ^ 3) W.X W.K a a (.force i) (.force j) v ∧
    Ewald.M11 W i j 0 0 a a c mu = isolated mu a (.force i) (.force j) + c * v := by
  refine ⟨_, imagesAdd_rest hW _ _ _ _ _, ?_⟩
  simp only [Ewald.M11, if_neg not_gt_eps, Ewald.rest, Ewald.smooth_zero]
  rw [List.map_congr_left (fun x hx => Ewald.near_FF W.lamb (hW.2 x hx) a a c mu i j), List.sum_map_mul_left,
    wave_self W.K fun k => Ewald.wave_FF W.lamb a a c 0 k i j]
  simp only [Ewald.ar, if_neg not_gt_eps, kron, isolated, dlt]
  split_ifs <;> ring

/-- Stress and rate of strain of one particle. -/
theorem C52_stress_stress (i j k l : Fin 3) : ∃ v,
    ImagesAdd W.lamb (W.L ^ 3) W.X W.K a a (.stress i j) (.stress k l) v ∧
    Ewald.M33 W i j k l 0 0 a a c mu = isolated mu a (.stress i j) (.stress k l) + c * v := by
  refine ⟨_, imagesAdd_rest hW _ _ _ _ _, ?_⟩
  simp only [Ewald.M33, if_neg not_gt_eps, Ewald.rest, Ewald.smooth_zero]
  rw [List.map_congr_left (fun x hx => Ewald.near_SS W.lamb (hW.2 x hx) a a c mu i j k l), List.sum_map_mul_left,
    wave_self W.K fun q => Ewald.wave_SS W.lamb a a c 0 q i j k l]
  simp only [Ewald.mr, if_neg not_gt_eps, Ewald.kron3traceless, kron_eq, isolated]
  ring

/-- Torque and angular velocity of one particle: the code leaves out a constant. Missing: equality without the last
term, which fails by `C52_torque_torque_wrong`. -/
theorem C52_torque_torque_partial (i j : Fin 3) : ∃ v,
    ImagesAdd W.lamb (W.L ^ 3) W.X W.K a a (.torque i) (.torque j) v ∧
    Ewald.M22 W i j 0 0 a a c mu = isolated mu a (.torque i) (.torque j) + c * v
      + c * (if i = j then 40 * W.lamb ^ 3 / (3 * Real.sqrt Real.pi) else 0) := by
  refine ⟨_, imagesAdd_rest hW _ _ _ _ _, ?_⟩
  simp only [Ewald.M22, if_neg not_gt_eps, Ewald.rest, Ewald.smooth_zero]
  rw [List.map_congr_left (fun x hx => Ewald.near_TT W.lamb (hW.2 x hx) a a c mu i j), List.sum_map_mul_left,
    wave_self W.K fun q => Ewald.wave_TT W.lamb a a c 0 q i j]
  simp only [Ewald.cr, Pi.zero_apply, abs_zero, add_zero, if_pos Ewald.eps10_pos.le, kron, isolated, dlt]
  split_ifs <;> ring

/-- The angular velocity of a particle under a torque is therefore too large, by a fixed fraction `40 pi/(3 L^3)` of
`1/(8 pi mu)`. -/
theorem C52_torque_torque_wrong (i : Fin 3) (hc : 0 < c) (hl : 0 < W.lamb) {v : ℝ}
    (hv : ImagesAdd W.lamb (W.L ^ 3) W.X W.K a a (.torque i) (.torque i) v) :
    isolated mu a (.torque i) (.torque i) + c * v < Ewald.M22 W i i 0 0 a a c mu := by
  obtain ⟨w, hw, e⟩ := C52_torque_torque_partial hW (a := a) (mu := mu) (c := c) i i
  rw [imagesAdd_unique hv hw, e, if_pos rfl]
  have : 0 < c * (40 * W.lamb ^ 3 / (3 * Real.sqrt Real.pi)) := by
    have := Real.sqrt_pos.mpr Real.pi_pos
    positivity
  linarith

/-- Stress and angular velocity of one particle, for a stress carried by a sphere of `√(5/3)` times the radius
(compare `C51_torque_stress_partial`). Missing: the radius itself. -/
theorem C52_torque_stress_partial (i j k : Fin 3) : ∃ v,
    ImagesAdd W.lamb (W.L ^ 3) W.X W.K a (Real.sqrt (5 / 3) * a) (.torque i) (.stress j k) v ∧
    Ewald.M23 W i j k 0 0 a a c mu = isolated mu a (.torque i) (.stress j k) + c * v := by
  refine ⟨_, imagesAdd_rest hW _ _ _ _ _, ?_⟩
  simp only [Ewald.M23, if_neg not_gt_eps, Ewald.rest, Ewald.smooth_zero]
  rw [List.map_congr_left (fun x hx => Ewald.near_TS W.lamb (hW.2 x hx) a a c mu i j k), List.sum_map_mul_left,
    wave_self W.K fun q => Ewald.wave_TS W.lamb a a c 0 q i j k]
  simp only [isolated]
  ring

/-- Torques and stresses give a particle no velocity through its own images, if the images are symmetric; the code
has zero there. -/
theorem C52_no_self_coupling (hs : (W.X.map fun x => -x).Perm W.X) (i j k : Fin 3) :
    ImagesAdd W.lamb (W.L ^ 3) W.X W.K a a (.force i) (.torque j) 0 ∧
    ImagesAdd W.lamb (W.L ^ 3) W.X W.K a a (.force i) (.stress j k) 0 ∧
    Ewald.M12 W i j 0 0 a a c mu = 0 ∧ Ewald.M13 W i j k 0 0 a a c mu = 0 := by
  refine ⟨?_, ?_, by simp [Ewald.M12, not_gt_eps], by simp [Ewald.M13, not_gt_eps]⟩
  · have := imagesAdd_rest hW (W.L ^ 3) a a (.force i) (.torque j)
    rwa [Ewald.rest_odd hs _ _ _ rfl (by rw [Ewald.smooth_zero])] at this
  · have := imagesAdd_rest hW (W.L ^ 3) a a (.force i) (.stress j k)
    rwa [Ewald.rest_odd hs _ _ _ rfl (by rw [Ewald.smooth_zero])] at this

end

/-- The lattice of every box in simple shear of any size (or at rest) meets the conditions above. -/
theorem C52_box_proper (n : ℕ) {bl tr Ot : Vec3} {Et : Mat3} {a b : Fin 3} {g : ℝ}
    (h : ∀ i, bl i + 1 / 10 ^ 10 < tr i) (hab : a ≠ b) (hs : IsShear Ot Et a b g) :
    Proper (Ewald.boxLattice n bl tr Ot Et) ∧
    ((Ewald.boxLattice n bl tr Ot Et).X.map fun x => -x).Perm (Ewald.boxLattice n bl tr Ot Et).X := by
  have hp : (0 : ℝ) < 1 / 10 ^ 10 := by positivity
  have h0 : ∀ i, bl i < tr i := fun i => by linarith [h i]
  have hI := Ewald.shear_independent hab hs h0
  refine ⟨⟨Ewald.boxLattice_X_split n bl tr Ot Et h0 hI, fun x hx => ?_⟩, Ewald.boxLattice_X_symm n bl tr Ot Et⟩
  have hx' := (List.mem_filter.mp hx).1
  have hne := Ewald.Xdash_ne_zero _ x hx
  rw [Ewald.boxLattice_X, List.mem_map] at hx'
  obtain ⟨m, -, rfl⟩ := hx'
  refine Ewald.shear_norm hab hs hp (fun i => by linarith [h i]) ?_
  rintro rfl
  exact hne (Ewald.gridVec_zero _)

/-- No flow is simple shear of size zero. -/
theorem rest_is_shear : IsShear 0 0 0 2 0 := by
  intro x k
  fin_cases k <;> simp [cross, app, dotp]

theorem demoBox_proper : Proper demoBox ∧ (demoBox.X.map fun x => -x).Perm demoBox.X :=
  C52_box_proper 2 (bl := 0) (tr := fun i => (0 : Vec3) i + 10) (fun i => by norm_num) (by decide) rest_is_shear

theorem demoBox_lamb : 0 < demoBox.lamb := by
  have : demoBox.L = 10 := Ewald.cube_L 2 0 (by norm_num)
  have e : demoBox.lamb = Real.sqrt Real.pi / demoBox.L := rfl
  rw [e, this]
  have := Real.sqrt_pos.mpr Real.pi_pos
  positivity

example (mu : ℝ) : ∃ v, ImagesAdd demoBox.lamb (demoBox.L ^ 3) demoBox.X demoBox.K 1 1 (.force 0) (.force 0) v ∧
    Ewald.M11 demoBox 0 0 0 0 1 1 (1 / (8 * Real.pi * mu)) mu
      = isolated mu 1 (.force 0) (.force 0) + 1 / (8 * Real.pi * mu) * v :=
  C52_force_force demoBox_proper.1 0 0

/-- In a cube of edge 10 the angular velocity of a unit sphere under a torque is too large. -/
theorem C52_cube_torque_wrong {mu : ℝ} (hmu : 0 < mu) : ∃ v,
    ImagesAdd demoBox.lamb (demoBox.L ^ 3) demoBox.X demoBox.K 1 1 (.torque 0) (.torque 0) v ∧
    isolated mu 1 (.torque 0) (.torque 0) + 1 / (8 * Real.pi * mu) * v
      < Ewald.M22 demoBox 0 0 0 0 1 1 (1 / (8 * Real.pi * mu)) mu := by
  obtain ⟨v, hv, -⟩ := C52_torque_torque_partial demoBox_proper.1 (a := 1) (mu := mu)
    (c := 1 / (8 * Real.pi * mu)) 0 0
  have := Real.pi_pos
  exact ⟨v, hv, C52_torque_torque_wrong demoBox_proper.1 0 (by positivity) demoBox_lamb hv⟩

end SD
