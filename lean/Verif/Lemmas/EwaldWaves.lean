import Verif.Lemmas.EwaldBox
import Verif.Lemmas.Lattice
import Mathlib.Analysis.SpecialFunctions.Trigonometric.Basic

/-!
# The waves of a cubic box, and the part of the response they carry
-/

set_option autoImplicit false

namespace SD.Ewald

open Spec

/-- Strength of a wave without the projection. -/
noncomputable def amp (lamb : ℝ) (k : Vec3) : ℝ :=
  8 * Real.pi / len k ^ 2 * (1 + len k ^ 2 / (4 * lamb ^ 2) + len k ^ 4 / (8 * lamb ^ 4))
    * Real.exp (-(len k ^ 2 / (4 * lamb ^ 2)))

theorem amp_pos (lamb : ℝ) {k : Vec3} (hk : k ≠ 0) : 0 < amp lamb k := by
  have := len_pos hk
  have := Real.pi_pos
  unfold amp
  positivity

theorem waveJ_amp (lamb : ℝ) (i j : Fin 3) (k : Vec3) :
    waveJ lamb i j k = (dlt i j - k i * k j / len k ^ 2) * amp lamb k := rfl

/-- A wave's share of the velocity along `y` from a torque about `z`, for a displacement along `x`. -/
theorem wave_FT12 (lamb a b t : ℝ) (k : Vec3) :
    waveResp lamb a b (.force 1) (.torque 2) ![t, 0, 0] k
      = 1 / 2 * (k 0 * Real.sin (k 0 * t)) * amp lamb k * (1 - a ^ 2 * len k ^ 2 / 6) := by
  have hi : inner3 k ![t, 0, 0] = k 0 * t := by simp [inner3, Fin.sum_univ_three]
  simp only [waveResp, respVal, sized, eps_two, hi, waveJ_amp]
  have e1 : (2 : Fin 3) + 1 = 0 := rfl
  have e2 : (2 : Fin 3) + 2 = 1 := rfl
  simp only [e1, e2, dlt, if_true, one_ne_zero, if_false]
  ring

/-- A wave's share of the velocity along `x` from the stress component `xx`, for a displacement along `x`. -/
theorem wave_FS000 (lamb a b t : ℝ) (k : Vec3) :
    waveResp lamb a b (.force 0) (.stress 0 0) ![t, 0, 0] k
      = k 0 * Real.sin (k 0 * t) * (1 - k 0 ^ 2 / len k ^ 2) * amp lamb k
        * (1 - (a ^ 2 / 6 + b ^ 2 / 10) * len k ^ 2) := by
  have hi : inner3 k ![t, 0, 0] = k 0 * t := by simp [inner3, Fin.sum_univ_three]
  simp only [waveResp, respVal, sized, hi, waveJ_amp, dlt, if_true]
  ring

theorem mul_sin_nonneg {x t : ℝ} (ht : 0 < t) (h : |x| * t < Real.pi) : 0 ≤ x * Real.sin (x * t) := by
  rcases le_total 0 x with hx | hx
  · rw [abs_of_nonneg hx] at h
    exact mul_nonneg hx (Real.sin_nonneg_of_nonneg_of_le_pi (by positivity) h.le)
  · rw [abs_of_nonpos hx] at h
    have : 0 ≤ Real.sin (-x * t) := Real.sin_nonneg_of_nonneg_of_le_pi (by nlinarith) h.le
    rw [neg_mul, Real.sin_neg] at this
    nlinarith

theorem mul_sin_pos {x t : ℝ} (hx : x ≠ 0) (ht : 0 < t) (h : |x| * t < Real.pi) :
    0 < x * Real.sin (x * t) := by
  rcases lt_or_gt_of_ne hx with hx | hx
  · rw [abs_of_neg hx] at h
    have : 0 < Real.sin (-x * t) := Real.sin_pos_of_pos_of_lt_pi (by nlinarith) h
    rw [neg_mul, Real.sin_neg] at this
    nlinarith
  · rw [abs_of_pos hx] at h
    exact mul_pos hx (Real.sin_pos_of_pos_of_lt_pi (by positivity) h)

theorem list_sum_pos {α : Type*} {K : List α} {f : α → ℝ} (h : ∀ k ∈ K, 0 ≤ f k) {k : α} (hk : k ∈ K)
    (hp : 0 < f k) : 0 < (K.map f).sum := by
  induction K with
  | nil => simp at hk
  | cons x K ih =>
    simp only [List.map_cons, List.sum_cons]
    have hK : 0 ≤ (K.map f).sum := List.sum_nonneg fun y hy => by
      obtain ⟨z, hz, rfl⟩ := List.mem_map.mp hy
      exact h z (List.mem_cons_of_mem _ hz)
    rcases List.mem_cons.mp hk with rfl | hk
    · linarith
    · have := ih (fun y hy => h y (List.mem_cons_of_mem _ hy)) hk
      have := h x List.mem_cons_self
      linarith

/-! ## The cube -/

theorem gridVec_combine (B : Mat3) (g : Fin 3 → ℤ) : gridVec B g = combine B fun a => (g a : ℝ) :=
  vecMat3_eq _ _

theorem independent_of_spans {B : Mat3} (h : Spans B) : Independent B := by
  intro n hn
  have : (fun a => (n a : ℝ)) = fun _ => (0 : ℝ) := by
    apply combine_inj h
    rw [← gridVec_combine, hn]
    funext k; simp [combine]
  funext a
  have := congrFun this a
  exact_mod_cast this

/-- Edges of a cube at rest. -/
theorem cube_basis (o : Vec3) (L : ℝ) (k i : Fin 3) :
    boxBasis o (fun a => o a + L) 0 0 k i = if k = i then L else 0 := by
  simp only [boxBasis, shear_basis_vectors, basis_canonical, npCross, matVec3, npMod]
  fin_cases k <;> fin_cases i <;> simp

theorem cube_L (n : ℕ) (o : Vec3) {L : ℝ} (hL : 0 < L) : (boxLattice n o (fun a => o a + L) 0 0).L = L := by
  simp only [boxLattice, add_sub_cancel_left]
  rw [show L * L * L = L ^ (3 : ℕ) by ring]
  rw [← Real.rpow_natCast, ← Real.rpow_mul hL.le]
  norm_num

theorem cube_gridVec (o : Vec3) (L : ℝ) (g : Fin 3 → ℤ) (i : Fin 3) :
    gridVec (boxBasis o (fun a => o a + L) 0 0) g i = g i * L := by
  simp only [gridVec, vecMat3, cube_basis]
  simp

theorem cube_norm (o : Vec3) {L : ℝ} (hL : 0 < L) (g : Fin 3 → ℤ) :
    norm3 (gridVec (boxBasis o (fun a => o a + L) 0 0) g)
      = L * Real.sqrt ((g 0 : ℝ) ^ 2 + (g 1 : ℝ) ^ 2 + (g 2 : ℝ) ^ 2) := by
  simp only [norm3, cube_gridVec]
  rw [show ((g 0 : ℝ) * L) ^ 2 + (g 1 * L) ^ 2 + (g 2 * L) ^ 2
    = L ^ 2 * ((g 0 : ℝ) ^ 2 + (g 1 : ℝ) ^ 2 + (g 2 : ℝ) ^ 2) by ring, Real.sqrt_mul (by positivity),
    Real.sqrt_sq hL.le]

/-- The waves of a cube. -/
theorem cube_K (n : ℕ) (o : Vec3) {L : ℝ} (hL : 0 < L) (k : Vec3) :
    k ∈ (boxLattice n o (fun a => o a + L) 0 0).K ↔ ∃ g : Fin 3 → ℤ, (∀ a, -(n : ℤ) ≤ g a ∧ g a ≤ n) ∧
      Real.sqrt ((g 0 : ℝ) ^ 2 + (g 1 : ℝ) ^ 2 + (g 2 : ℝ) ^ 2) ≤ 1.4142 * n ∧ g ≠ 0 ∧
      k = ![-(2 * Real.pi / L * g 1), -(2 * Real.pi / L * g 0), 2 * Real.pi / L * g 2] := by
  have hB : shear_basis_vectors (basis_canonical fun i => o i + L - o i) (fun i => o i + L - o i) 0 0
      = boxBasis o (fun a => o a + L) 0 0 := rfl
  have hLL := cube_L n o hL
  have hI : Independent (boxBasis o (fun a => o a + L) 0 0) := by
    apply independent_of_spans
    unfold Spans
    simp only [cube_basis]
    simp [hL.ne']
  have hv : ∀ g : Fin 3 → ℤ, gridVec (k_basis_vectors L (boxBasis o (fun a => o a + L) 0 0)) g
      = ![-(2 * Real.pi / L * g 1), -(2 * Real.pi / L * g 0), 2 * Real.pi / L * g 2] := by
    intro g
    funext i
    simp only [gridVec, vecMat3, k_basis_vectors, Fin.sum_univ_three, npCross, cube_basis]
    fin_cases i <;> simp <;> field_simp
  have hK : (boxLattice n o (fun a => o a + L) 0 0).K = ((gridpoints n).filter fun g =>
      decide (norm3 (gridVec (boxBasis o (fun a => o a + L) 0 0) g)
        ≤ 1.4142 * n * (boxLattice n o (fun a => o a + L) 0 0).L)
      && decide (norm3 (gridVec (boxBasis o (fun a => o a + L) 0 0) g) > 0)).map
      (gridVec (k_basis_vectors (boxLattice n o (fun a => o a + L) 0 0).L (boxBasis o (fun a => o a + L) 0 0))) := rfl
  rw [hK, hLL, List.mem_map]
  constructor
  · rintro ⟨g, hg, rfl⟩
    rw [List.mem_filter, mem_gridpoints, Bool.and_eq_true, decide_eq_true_iff, decide_eq_true_iff,
      norm3_pos_iff, cube_norm o hL] at hg
    refine ⟨g, hg.1, ?_, ?_, hv g⟩
    · have := hg.2.1
      rw [show (1.4142 : ℝ) * n * L = L * (1.4142 * n) by ring] at this
      exact le_of_mul_le_mul_left this hL
    · rintro rfl
      exact hg.2.2 (gridVec_zero _)
  · rintro ⟨g, h1, h2, h3, rfl⟩
    refine ⟨g, ?_, hv g⟩
    rw [List.mem_filter, mem_gridpoints, Bool.and_eq_true, decide_eq_true_iff, decide_eq_true_iff,
      norm3_pos_iff, cube_norm o hL]
    refine ⟨h1, ?_, fun h => h3 (hI g h)⟩
    rw [show (1.4142 : ℝ) * n * L = L * (1.4142 * n) by ring]
    exact mul_le_mul_of_nonneg_left h2 hL.le

/-- Bounds on the waves of a cube. -/
theorem cube_K_bounds (n : ℕ) (o : Vec3) {L : ℝ} (hL : 0 < L) {k : Vec3}
    (hk : k ∈ (boxLattice n o (fun a => o a + L) 0 0).K) :
    k ≠ 0 ∧ |k 0| ≤ 2 * Real.pi * n / L ∧ len k ^ 2 ≤ 8 * Real.pi ^ 2 * n ^ 2 / L ^ 2 := by
  obtain ⟨g, h1, h2, h3, rfl⟩ := (cube_K n o hL k).mp hk
  have hp : 0 < 2 * Real.pi / L := div_pos (by linarith [Real.pi_pos]) hL
  refine ⟨fun h => h3 ?_, ?_, ?_⟩
  · have e0 := congrFun h 0
    have e1 := congrFun h 1
    have e2 := congrFun h 2
    simp only [Matrix.cons_val_zero, Matrix.cons_val_one, Matrix.cons_val, Pi.zero_apply, neg_eq_zero,
      mul_eq_zero, hp.ne', false_or] at e0 e1 e2
    funext a
    fin_cases a
    · exact_mod_cast e1
    · exact_mod_cast e0
    · exact_mod_cast e2
  · simp only [Matrix.cons_val_zero, abs_neg, abs_mul, abs_of_pos hp]
    have : |(g 1 : ℝ)| ≤ n := by
      rw [abs_le]
      exact ⟨by exact_mod_cast (h1 1).1, by exact_mod_cast (h1 1).2⟩
    calc 2 * Real.pi / L * |(g 1 : ℝ)| ≤ 2 * Real.pi / L * n := mul_le_mul_of_nonneg_left this hp.le
      _ = _ := by ring
  · have e : len ![-(2 * Real.pi / L * g 1), -(2 * Real.pi / L * g 0), 2 * Real.pi / L * g 2] ^ 2
        = (2 * Real.pi / L) ^ 2 * ((g 0 : ℝ) ^ 2 + (g 1 : ℝ) ^ 2 + (g 2 : ℝ) ^ 2) := by
      rw [len_sq]; simp; ring
    rw [e]
    have h4 : (g 0 : ℝ) ^ 2 + (g 1 : ℝ) ^ 2 + (g 2 : ℝ) ^ 2 ≤ 2 * n ^ 2 := by
      have h5 := Real.sqrt_nonneg ((g 0 : ℝ) ^ 2 + (g 1 : ℝ) ^ 2 + (g 2 : ℝ) ^ 2)
      have h6 := Real.sq_sqrt (show (0 : ℝ) ≤ (g 0 : ℝ) ^ 2 + (g 1 : ℝ) ^ 2 + (g 2 : ℝ) ^ 2 by positivity)
      have h7 := pow_le_pow_left₀ h5 h2 2
      rw [h6] at h7
      nlinarith [sq_nonneg (n : ℝ)]
    calc (2 * Real.pi / L) ^ 2 * ((g 0 : ℝ) ^ 2 + (g 1 : ℝ) ^ 2 + (g 2 : ℝ) ^ 2)
        ≤ (2 * Real.pi / L) ^ 2 * (2 * n ^ 2) := mul_le_mul_of_nonneg_left h4 (by positivity)
      _ = _ := by field_simp; ring

/-- One wave of a cube: oblique to all axes but the third. -/
theorem cube_K_mem {n : ℕ} (hn : 1 ≤ n) (o : Vec3) {L : ℝ} (hL : 0 < L) :
    ![2 * Real.pi / L, 0, 0] ∈ (boxLattice n o (fun a => o a + L) 0 0).K := by
  refine (cube_K n o hL _).mpr ⟨![0, -1, 0], fun a => ?_, ?_, fun h => ?_, ?_⟩
  · fin_cases a <;> simp <;> omega
  · simp
    have : (1 : ℝ) ≤ n := by exact_mod_cast hn
    linarith
  · simpa using congrFun h 1
  · simp

theorem cube_K_mem2 {n : ℕ} (hn : 2 ≤ n) (o : Vec3) {L : ℝ} (hL : 0 < L) :
    ![2 * Real.pi / L, 0, 2 * Real.pi / L] ∈ (boxLattice n o (fun a => o a + L) 0 0).K := by
  have h2 : (2 : ℝ) ≤ n := by exact_mod_cast hn
  refine (cube_K n o hL _).mpr ⟨![0, -1, 1], fun a => ?_, ?_, fun h => ?_, ?_⟩
  · fin_cases a <;> simp <;> omega
  · have : Real.sqrt ((((![0, -1, 1] : Fin 3 → ℤ) 0 : ℤ) : ℝ) ^ 2 + (((![0, -1, 1] : Fin 3 → ℤ) 1 : ℤ) : ℝ) ^ 2
        + (((![0, -1, 1] : Fin 3 → ℤ) 2 : ℤ) : ℝ) ^ 2) ≤ 2 := by
      rw [Real.sqrt_le_left (by norm_num)]
      simp; norm_num
    linarith
  · simpa using congrFun h 1
  · simp

/-- Images of a cube are at least one edge away from each other. -/
theorem cube_X (n : ℕ) (o : Vec3) {L : ℝ} {x : Vec3} (hx : x ∈ (boxLattice n o (fun a => o a + L) 0 0).X) :
    ∃ g : Fin 3 → ℤ, x = fun i => g i * L := by
  rw [boxLattice_X, List.mem_map] at hx
  obtain ⟨g, -, rfl⟩ := hx
  exact ⟨g, funext fun i => cube_gridVec o L g i⟩

/-- A point of the cell other than its corner is apart from all images. -/
theorem cube_apart (n : ℕ) (o : Vec3) {L t : ℝ} (h1 : eps10 < t) (h2 : t + eps10 < L) :
    Apart (boxLattice n o (fun a => o a + L) 0 0).X ![t, 0, 0] := by
  intro x hx
  obtain ⟨g, rfl⟩ := cube_X n o hx
  have hL : 0 < L := by linarith [eps10_pos]
  have a0 : eps10 < |t + g 0 * L| := by
    rcases le_or_gt 0 (g 0) with h | h
    · have : (0 : ℝ) ≤ g 0 := by exact_mod_cast h
      have hm := mul_nonneg this hL.le
      have he := eps10_pos
      rw [abs_of_nonneg (by linarith)]
      linarith
    · have : (g 0 : ℝ) ≤ -1 := by exact_mod_cast (by omega : g 0 ≤ -1)
      have hm : (g 0 : ℝ) * L ≤ -L := by nlinarith
      have he := eps10_pos
      rw [abs_of_neg (by linarith)]
      linarith
  refine lt_of_lt_of_le a0 ?_
  unfold norm3
  simp only [Pi.add_apply, Matrix.cons_val_zero]
  rw [← Real.sqrt_sq_eq_abs]
  refine Real.sqrt_le_sqrt ?_
  nlinarith [sq_nonneg ((![t, 0, 0] : Vec3) 1 + (g 1 : ℝ) * L), sq_nonneg ((![t, 0, 0] : Vec3) 2 + (g 2 : ℝ) * L)]

end SD.Ewald
