import Verif.Lemmas.EwaldOpen
import Verif.Lemmas.EwaldWaves

/-!
# C51: the pair blocks of the periodic far field

`W` is any finite set of images and waves; `Ewald.Apart W.X r` says that the displacement is more than `1e-10` from
every lattice vector. `greenResponse` is the Faxén response through a Green's function.
-/

set_option autoImplicit false

namespace SD

open Spec

/-- The specification used below agrees, in unbounded fluid, with the Faxén response of the open far field. -/
theorem C51_open_space (a b : ℝ) (l1 l2 : Load) {r : Vec3} (hr : r ≠ 0) :
    greenResponse oseen a b l1 l2 r = response a b l1 l2 r := Ewald.greenResponse_oseen a b l1 l2 hr

section
variable (W : Ewald.Lattice) {r : Vec3} (hr : Ewald.Apart W.X r) (s a1 a2 c mu : ℝ) (hs : s > 1 / 10 ^ 10)
include hr hs

/-- Force on one sphere, velocity of another: the Faxén response through the Green's function of the box. -/
theorem C51_force_force (i j : Fin 3) : Ewald.M11 W i j r s a1 a2 c mu
    = c * greenResponse (boxJ W.lamb (W.L ^ 3) W.X W.K) a1 a2 (.force i) (.force j) r :=
  Ewald.M11_pair W hr s a1 a2 c mu hs i j

/-- Torque on one sphere, angular velocity of another. -/
theorem C51_torque_torque (i j : Fin 3) : Ewald.M22 W i j r s a1 a2 c mu
    = c * greenResponse (boxJ W.lamb (W.L ^ 3) W.X W.K) a1 a2 (.torque i) (.torque j) r :=
  Ewald.M22_pair W hr s a1 a2 c mu hs i j

/-- Stress on one sphere, rate of strain of another. -/
theorem C51_stress_stress (i j k l : Fin 3) : Ewald.M33 W i j k l r s a1 a2 c mu
    = c * greenResponse (boxJ W.lamb (W.L ^ 3) W.X W.K) a1 a2 (.stress i j) (.stress k l) r :=
  Ewald.M33_pair W hr s a1 a2 c mu hs i j k l

/-- Stress on one sphere, angular velocity of another: the response to a sphere of `√(5/3)` times the radius. The
code multiplies the Laplacian by `a2²/6` where Faxén's law has `a2²/10`. Missing: agreement for the radius `a2`;
see `C51_torque_stress_defect` for the difference. -/
theorem C51_torque_stress_partial (i j k : Fin 3) : Ewald.M23 W i j k r s a1 a2 c mu
    = c * greenResponse (boxJ W.lamb (W.L ^ 3) W.X W.K) a1 (Real.sqrt (5 / 3) * a2) (.torque i) (.stress j k) r :=
  Ewald.M23_pair W hr s a1 a2 c mu hs i j k

/-- The difference from Faxén's law is `a2²/15` times the response through the Laplacian of the Green's function. -/
theorem C51_torque_stress_defect (i j k : Fin 3) : Ewald.M23 W i j k r s a1 a2 c mu
    = c * (greenResponse (boxJ W.lamb (W.L ^ 3) W.X W.K) a1 a2 (.torque i) (.stress j k) r
      + a2 ^ 2 / 15 * receive (.torque i)
        (source (fun i j => lap (boxJ W.lamb (W.L ^ 3) W.X W.K i j)) (.stress j k)) r) := by
  rw [C51_torque_stress_partial W hr s a1 a2 c mu hs]
  simp only [greenResponse, sized, mul_pow, Real.sq_sqrt (show (0 : ℝ) ≤ 5 / 3 by norm_num)]
  ring

/-- Torque on one sphere, velocity of another: only the images are summed. Missing: the waves, which do not vanish;
see `C51_force_torque_waves`. -/
theorem C51_force_torque_partial (i j : Fin 3) : Ewald.M12 W i j r s a1 a2 c mu
    = c * greenResponse (imageSum W.lamb W.X) a1 a2 (.force i) (.torque j) r :=
  Ewald.M12_pair W hr s a1 a2 c mu hs i j

/-- Stress on one sphere, velocity of another: only the images are summed. Missing: the waves, which do not vanish;
see `C51_force_stress_waves`. -/
theorem C51_force_stress_partial (i j k : Fin 3) : Ewald.M13 W i j k r s a1 a2 c mu
    = c * greenResponse (imageSum W.lamb W.X) a1 a2 (.force i) (.stress j k) r :=
  Ewald.M13_pair W hr s a1 a2 c mu hs i j k

/-- What the code leaves out of the velocity due to a torque is the sum over waves. -/
theorem C51_force_torque_defect (i j : Fin 3) : Ewald.M12 W i j r s a1 a2 c mu
    = c * (greenResponse (boxJ W.lamb (W.L ^ 3) W.X W.K) a1 a2 (.force i) (.torque j) r
      - greenResponse (waveSum W.lamb (W.L ^ 3) W.K) a1 a2 (.force i) (.torque j) r) := by
  rw [C51_force_torque_partial W hr s a1 a2 c mu hs, Ewald.boxJ_response _ _ _ _ _ _ _ _ hr.clear,
    Ewald.waveSum_response, Ewald.imageSum_response _ _ _ _ _ _ hr.clear]
  ring

/-- What the code leaves out of the velocity due to a stress is the sum over waves. -/
theorem C51_force_stress_defect (i j k : Fin 3) : Ewald.M13 W i j k r s a1 a2 c mu
    = c * (greenResponse (boxJ W.lamb (W.L ^ 3) W.X W.K) a1 a2 (.force i) (.stress j k) r
      - greenResponse (waveSum W.lamb (W.L ^ 3) W.K) a1 a2 (.force i) (.stress j k) r) := by
  rw [C51_force_stress_partial W hr s a1 a2 c mu hs, Ewald.boxJ_response _ _ _ _ _ _ _ _ hr.clear,
    Ewald.waveSum_response, Ewald.imageSum_response _ _ _ _ _ _ hr.clear]
  ring

end

/-- Waves of a cube are long enough for the bounds below. -/
theorem cube_waves (n : ℕ) (o : Vec3) {L t : ℝ} (hL : 0 < L) (ht : 2 * n * t < L) (ht0 : 0 < t) {k : Vec3}
    (hk : k ∈ (Ewald.boxLattice n o (fun i => o i + L) 0 0).K) : |k 0| * t < Real.pi := by
  obtain ⟨-, h2, -⟩ := Ewald.cube_K_bounds n o hL hk
  have hp := Real.pi_pos
  calc |k 0| * t ≤ 2 * Real.pi * n / L * t := mul_le_mul_of_nonneg_right h2 ht0.le
    _ = Real.pi * (2 * n * t / L) := by ring
    _ < Real.pi * 1 := by
        refine mul_lt_mul_of_pos_left ?_ hp
        rw [div_lt_one hL]; exact ht
    _ = Real.pi := mul_one _

/-- The waves left out do not vanish. In any cubic box, for spheres a little way apart along one edge and small
compared with the box, they add a positive amount to the sideways velocity due to a torque. -/
theorem C51_force_torque_waves (n : ℕ) (hn : 1 ≤ n) (o : Vec3) {L t a : ℝ} (hL : 0 < L) (ht0 : 0 < t)
    (ht : 2 * n * t < L) (ha : 4 * Real.pi ^ 2 * n ^ 2 * a ^ 2 < 3 * L ^ 2) (b : ℝ) :
    0 < greenResponse (waveSum (Ewald.boxLattice n o (fun i => o i + L) 0 0).lamb
        ((Ewald.boxLattice n o (fun i => o i + L) 0 0).L ^ 3) (Ewald.boxLattice n o (fun i => o i + L) 0 0).K)
      a b (.force 1) (.torque 2) ![t, 0, 0] := by
  set W := Ewald.boxLattice n o (fun i => o i + L) 0 0 with hW
  have hsz : ∀ k ∈ W.K, 0 < 1 - a ^ 2 * len k ^ 2 / 6 := by
    intro k hk
    obtain ⟨-, -, h3⟩ := Ewald.cube_K_bounds n o hL hk
    have : a ^ 2 * len k ^ 2 ≤ a ^ 2 * (8 * Real.pi ^ 2 * n ^ 2 / L ^ 2) :=
      mul_le_mul_of_nonneg_left h3 (sq_nonneg a)
    have h4 : a ^ 2 * (8 * Real.pi ^ 2 * n ^ 2 / L ^ 2) < 6 := by
      rw [mul_div_assoc', div_lt_iff₀ (by positivity)]
      nlinarith
    linarith
  rw [Ewald.waveSum_response]
  have hV : 0 < 1 / W.L ^ 3 := by
    rw [hW, Ewald.cube_L n o hL]; positivity
  refine mul_pos hV ?_
  simp only [Ewald.wave_FT12]
  refine Ewald.list_sum_pos (fun k hk => ?_) (Ewald.cube_K_mem hn o hL) ?_
  · have h1 := Ewald.mul_sin_nonneg ht0 (cube_waves n o hL ht ht0 hk)
    have h2 := Ewald.amp_pos W.lamb (Ewald.cube_K_bounds n o hL hk).1
    have h3 := hsz k hk
    positivity
  · have hm := Ewald.cube_K_mem hn o hL
    have h1 := Ewald.mul_sin_pos (x := 2 * Real.pi / L) (div_pos (by linarith [Real.pi_pos]) hL).ne' ht0
      (cube_waves n o hL ht ht0 hm)
    have h2 := Ewald.amp_pos W.lamb (Ewald.cube_K_bounds n o hL hm).1
    have h3 := hsz _ hm
    simp only [Matrix.cons_val_zero]
    positivity

/-- The same for the velocity due to a stress. -/
theorem C51_force_stress_waves (n : ℕ) (hn : 2 ≤ n) (o : Vec3) {L t a b : ℝ} (hL : 0 < L) (ht0 : 0 < t)
    (ht : 2 * n * t < L) (ha : 8 * Real.pi ^ 2 * n ^ 2 * (a ^ 2 / 6 + b ^ 2 / 10) < L ^ 2) :
    0 < greenResponse (waveSum (Ewald.boxLattice n o (fun i => o i + L) 0 0).lamb
        ((Ewald.boxLattice n o (fun i => o i + L) 0 0).L ^ 3) (Ewald.boxLattice n o (fun i => o i + L) 0 0).K)
      a b (.force 0) (.stress 0 0) ![t, 0, 0] := by
  set W := Ewald.boxLattice n o (fun i => o i + L) 0 0 with hW
  have hsz : ∀ k ∈ W.K, 0 < 1 - (a ^ 2 / 6 + b ^ 2 / 10) * len k ^ 2 := by
    intro k hk
    obtain ⟨-, -, h3⟩ := Ewald.cube_K_bounds n o hL hk
    have : (a ^ 2 / 6 + b ^ 2 / 10) * len k ^ 2 ≤ (a ^ 2 / 6 + b ^ 2 / 10) * (8 * Real.pi ^ 2 * n ^ 2 / L ^ 2) :=
      mul_le_mul_of_nonneg_left h3 (by positivity)
    have h4 : (a ^ 2 / 6 + b ^ 2 / 10) * (8 * Real.pi ^ 2 * n ^ 2 / L ^ 2) < 1 := by
      rw [mul_div_assoc', div_lt_iff₀ (by positivity)]
      nlinarith
    linarith
  have hpr : ∀ k : Vec3, k ≠ 0 → 1 - k 0 ^ 2 / len k ^ 2 = (k 1 ^ 2 + k 2 ^ 2) / len k ^ 2 := by
    intro k hk
    have hl := len_pos hk
    field_simp
    rw [len_sq]; ring
  rw [Ewald.waveSum_response]
  have hV : 0 < 1 / W.L ^ 3 := by
    rw [hW, Ewald.cube_L n o hL]; positivity
  refine mul_pos hV ?_
  simp only [Ewald.wave_FS000]
  refine Ewald.list_sum_pos (fun k hk => ?_) (Ewald.cube_K_mem2 hn o hL) ?_
  · have h1 := Ewald.mul_sin_nonneg ht0 (cube_waves n o hL ht ht0 hk)
    have h0 := (Ewald.cube_K_bounds n o hL hk).1
    have h2 := Ewald.amp_pos W.lamb h0
    have h3 := hsz k hk
    rw [hpr k h0]
    positivity
  · have hm := Ewald.cube_K_mem2 hn o hL
    have hq : 0 < 2 * Real.pi / L := div_pos (by linarith [Real.pi_pos]) hL
    have h1 := Ewald.mul_sin_pos (x := 2 * Real.pi / L) hq.ne' ht0 (cube_waves n o hL ht ht0 hm)
    have h0 := (Ewald.cube_K_bounds n o hL hm).1
    have h2 := Ewald.amp_pos W.lamb h0
    have h3 := hsz _ hm
    have h4 := len_pos h0
    rw [hpr _ h0]
    simp only [Matrix.cons_val_zero, Matrix.cons_val_one, Matrix.cons_val]
    positivity

/-- The box of the examples: a cube of edge 10, with the code's setting of two boxes in each direction. -/
noncomputable def demoBox : Ewald.Lattice := Ewald.boxLattice 2 0 (fun i => (0 : Vec3) i + 10) 0 0

/-- The spheres of the examples are 2.2 apart. -/
theorem demoBox_apart : Ewald.Apart demoBox.X ![2.2, 0, 0] :=
  Ewald.cube_apart 2 0 (by unfold eps10; norm_num) (by unfold eps10; norm_num)

example (mu : ℝ) : Ewald.M11 demoBox 0 1 ![2.2, 0, 0] 2.2 1 1
      (1 / (8 * Real.pi * mu)) mu
    = 1 / (8 * Real.pi * mu) * greenResponse (boxJ demoBox.lamb (demoBox.L ^ 3) demoBox.X demoBox.K) 1 1 (.force 0) (.force 1) ![2.2, 0, 0] :=
  C51_force_force _ demoBox_apart _ _ _ _ _ (by norm_num) _ _

/-- For these spheres the code's coupling of torque and velocity is not the response in the box. -/
theorem C51_force_torque_wrong {mu : ℝ} (hmu : 0 < mu) :
    Ewald.M12 demoBox 1 2 ![2.2, 0, 0] 2.2 1 1
      (1 / (8 * Real.pi * mu)) mu
    < 1 / (8 * Real.pi * mu) * greenResponse (boxJ demoBox.lamb
      (demoBox.L ^ 3)
      demoBox.X
      demoBox.K) 1 1 (.force 1) (.torque 2) ![2.2, 0, 0] := by
  have hp := Real.pi_pos
  rw [C51_force_torque_defect _ demoBox_apart _ _ _ _ _ (by norm_num)]
  have h3 := Real.pi_lt_d2
  have h := C51_force_torque_waves 2 (by norm_num) 0 (L := 10) (t := 2.2) (a := 1) (by norm_num) (by norm_num)
    (by norm_num) (by push_cast; nlinarith) 1
  exact mul_lt_mul_of_pos_left (sub_lt_self _ h) (by positivity)

/-- For smaller spheres the code's coupling of stress and velocity is not the response in the box. -/
theorem C51_force_stress_wrong {mu : ℝ} (hmu : 0 < mu) :
    Ewald.M13 demoBox 0 0 0 ![2.2, 0, 0] 2.2 (1 / 2) (1 / 2)
      (1 / (8 * Real.pi * mu)) mu
    < 1 / (8 * Real.pi * mu) * greenResponse (boxJ demoBox.lamb
      (demoBox.L ^ 3)
      demoBox.X
      demoBox.K) (1 / 2) (1 / 2) (.force 0) (.stress 0 0)
      ![2.2, 0, 0] := by
  have hp := Real.pi_pos
  rw [C51_force_stress_defect _ demoBox_apart _ _ _ _ _ (by norm_num)]
  have h3 := Real.pi_lt_d2
  have h := C51_force_stress_waves 2 (by norm_num) 0 (L := 10) (t := 2.2) (a := 1 / 2) (b := 1 / 2) (by norm_num)
    (by norm_num) (by norm_num) (by push_cast; nlinarith)
  exact mul_lt_mul_of_pos_left (sub_lt_self _ h) (by positivity)

example : greenResponse oseen 1 1 (.force 0) (.force 0) ![1, 2, 2]
    = response 1 1 (.force 0) (.force 0) ![1, 2, 2] := by
  refine C51_open_space 1 1 _ _ fun h => ?_
  simpa using congrFun h 0

end SD
