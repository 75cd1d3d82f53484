import Verif.Lemmas.EwaldGreen

/-!
# The pair functions of the model are responses in the box
-/

set_option autoImplicit false

namespace SD.Ewald

open Spec

theorem eps10_pos : (0 : ℝ) < eps10 := by unfold eps10; positivity

theorem dot3_eq (x y : Vec3) : dot3 x y = inner3 x y := by
  unfold dot3 inner3; rw [Fin.sum_univ_three]

theorem ne_zero_of_norm {y : Vec3} (h : norm3 y > eps10) : y ≠ 0 := by
  rintro rfl
  have : norm3 (0 : Vec3) = 0 := by simp [norm3]
  rw [this] at h
  exact absurd h (not_lt.mpr eps10_pos.le)

theorem norm3_le_one_norm (y : Vec3) : norm3 y ≤ |y 0| + |y 1| + |y 2| := by
  unfold norm3
  refine Real.sqrt_le_iff.mpr ⟨by positivity, ?_⟩
  have h0 := sq_abs (y 0); have h1 := sq_abs (y 1); have h2 := sq_abs (y 2)
  nlinarith [abs_nonneg (y 0), abs_nonneg (y 1), abs_nonneg (y 2), mul_nonneg (abs_nonneg (y 0)) (abs_nonneg (y 1)),
    mul_nonneg (abs_nonneg (y 0)) (abs_nonneg (y 2)), mul_nonneg (abs_nonneg (y 1)) (abs_nonneg (y 2))]

theorem eps_two (j : Fin 3) (f : Fin 3 → Fin 3 → ℝ) :
    ∑ k, ∑ l, eps j k l * f k l = f (j + 1) (j + 2) - f (j + 2) (j + 1) := by
  simp only [Fin.sum_univ_three]
  fin_cases j <;> simp [eps] <;> ring

section near
variable (lamb : ℝ) {y : Vec3} (hy : norm3 y > eps10) (a1 a2 c mu : ℝ)
include hy

theorem near_FF (i j : Fin 3) : ar y (norm3 y) a1 a2 i j (generate_erfcs (norm3 y) lamb) c mu
    = c * nearResp lamb a1 a2 (.force i) (.force j) y := by
  have h0 := ne_zero_of_norm hy
  simp only [ar, if_pos hy]
  rw [norm3_eq_len, J_eq lamb h0, Lap_J_eq lamb h0]
  simp only [nearResp, respVal, sized]
  ring

theorem near_FT (i j : Fin 3) : btr y (norm3 y) a1 a2 i j (generate_erfcs (norm3 y) lamb) c mu
    = c * nearResp lamb a1 a2 (.force i) (.torque j) y := by
  have h0 := ne_zero_of_norm hy
  simp only [btr, if_pos hy]
  rw [norm3_eq_len]
  simp only [R, Lap_R, D_J_eq lamb h0, DLap_J_eq lamb h0, nearResp, respVal, sized, eps_two]
  ring

theorem near_FS (i j k : Fin 3) : gtr y (norm3 y) a1 a2 i j k (generate_erfcs (norm3 y) lamb) c mu
    = c * nearResp lamb a1 a2 (.force i) (.stress j k) y := by
  have h0 := ne_zero_of_norm hy
  simp only [gtr, if_pos hy]
  rw [norm3_eq_len]
  simp only [K, Lap_K, D_J_eq lamb h0, DLap_J_eq lamb h0, nearResp, respVal, sized]
  ring

theorem near_TT (i j : Fin 3) : cr y (norm3 y) a1 a2 i j (generate_erfcs (norm3 y) lamb) c mu
    = c * nearResp lamb a1 a2 (.torque i) (.torque j) y := by
  have h0 := ne_zero_of_norm hy
  have h1 : ¬ |y 0| + |y 1| + |y 2| ≤ eps10 := not_le.mpr (lt_of_lt_of_le hy (norm3_le_one_norm y))
  simp only [cr, if_neg h1]
  rw [norm3_eq_len]
  simp only [D_R, DD_J_eq lamb h0, nearResp, respVal, sized, eps_two]
  ring

theorem near_TS (i j k : Fin 3) : htr y (norm3 y) a1 a2 i j k (generate_erfcs (norm3 y) lamb) c mu
    = c * nearResp lamb a1 (Real.sqrt (5 / 3) * a2) (.torque i) (.stress j k) y := by
  have h0 := ne_zero_of_norm hy
  have h1 : |y 0| + |y 1| + |y 2| > eps10 := lt_of_lt_of_le hy (norm3_le_one_norm y)
  simp only [htr, if_pos h1]
  rw [norm3_eq_len]
  simp only [D_K, DLap_K, DD_J_eq lamb h0, DDLap_J_eq lamb h0, nearResp, respVal, sized, eps_two,
    mul_pow, Real.sq_sqrt (show (0 : ℝ) ≤ 5 / 3 by norm_num)]
  ring

theorem near_SS (i j k l : Fin 3) : mr y (norm3 y) a1 a2 i j k l (generate_erfcs (norm3 y) lamb) c mu
    = c * nearResp lamb a1 a2 (.stress i j) (.stress k l) y := by
  have h0 := ne_zero_of_norm hy
  simp only [mr, if_pos hy]
  rw [norm3_eq_len]
  simp only [D_K, DLap_K, DD_J_eq lamb h0, DDLap_J_eq lamb h0, nearResp, respVal, sized]
  ring

end near

/-! ## Waves -/

theorem Jtilde_eq (lamb : ℝ) (k : Vec3) (i j : Fin 3) :
    Jtilde (k i) (k j) (len k) i j (RRK lamb (len k)) = waveJ lamb i j k := by
  by_cases h : k = 0
  · subst h
    have : len (0 : Vec3) = 0 := by simp [len]
    simp [Jtilde, waveJ, this]
  · have hs := len_pos h
    simp only [Jtilde, RRK, waveJ, kron_eq]
    rw [show -len k ^ 2 / (4 * lamb ^ 2) = -(len k ^ 2 / (4 * lamb ^ 2)) by ring]
    generalize Real.exp (-(len k ^ 2 / (4 * lamb ^ 2))) = E
    have e : (1 + len k ^ 2 / (4 * lamb ^ 2) + len k ^ 4 / (8 * lamb ^ 4)) =
      (1 + len k ^ 2 / (4 * lamb ^ 2) + len k ^ 4 / (8 * lamb ^ 4)) := rfl
    generalize (1 + len k ^ 2 / (4 * lamb ^ 2) + len k ^ 4 / (8 * lamb ^ 4)) = F
    field_simp

section wave
variable (lamb a1 a2 c : ℝ) (r k : Vec3)

theorem wave_FF (i j : Fin 3) :
    Real.cos (dot3 k r) * aktilde k (norm3 k) a1 a2 i j (RRK lamb (norm3 k)) c
    = c * waveResp lamb a1 a2 (.force i) (.force j) r k := by
  rw [norm3_eq_len, dot3_eq]
  simp only [aktilde, Lap_Jtilde, Jtilde_eq, waveResp, respVal, sized]
  ring

theorem wave_TT (i j : Fin 3) :
    Real.cos (dot3 k r) * cktilde k (norm3 k) a1 a2 i j (RRK lamb (norm3 k)) c
    = c * waveResp lamb a1 a2 (.torque i) (.torque j) r k := by
  rw [norm3_eq_len, dot3_eq]
  simp only [cktilde, D_Rtilde, DD_Jtilde, Jtilde_eq, waveResp, respVal, sized, eps_two]
  ring

theorem wave_TS (i j l : Fin 3) :
    Real.cos (dot3 k r) * htktilde k (norm3 k) a1 a2 i j l (RRK lamb (norm3 k)) c
    = c * waveResp lamb a1 (Real.sqrt (5 / 3) * a2) (.torque i) (.stress j l) r k := by
  rw [norm3_eq_len, dot3_eq]
  simp only [htktilde, D_Ktilde, DLap_Ktilde, DD_Jtilde, Jtilde_eq, waveResp, respVal, sized, eps_two,
    mul_pow, Real.sq_sqrt (show (0 : ℝ) ≤ 5 / 3 by norm_num)]
  ring

theorem wave_SS (i j l m : Fin 3) :
    Real.cos (dot3 k r) * mktilde k (norm3 k) a1 a2 i j l m (RRK lamb (norm3 k)) c
    = c * waveResp lamb a1 a2 (.stress i j) (.stress l m) r k := by
  rw [norm3_eq_len, dot3_eq]
  simp only [mktilde, D_Ktilde, DLap_Ktilde, DD_Jtilde, Jtilde_eq, waveResp, respVal, sized]
  ring

end wave

/-! ## Pairs -/

/-- No image of the second particle comes within `1e-10` of the first. -/
def Apart (X : List Vec3) (r : Vec3) : Prop := ∀ x ∈ X, norm3 (r + x) > eps10

theorem Apart.clear {X : List Vec3} {r : Vec3} (h : Apart X r) : r ∈ Clear X :=
  fun x hx => ne_zero_of_norm (h x hx)

section pair
variable (W : Lattice) {r : Vec3} (hr : Apart W.X r) (s a1 a2 c mu : ℝ) (hs : s > eps10)
include hr hs

theorem M11_pair (i j : Fin 3) : M11 W i j r s a1 a2 c mu
    = c * greenResponse (boxJ W.lamb (W.L ^ 3) W.X W.K) a1 a2 (.force i) (.force j) r := by
  rw [boxJ_response _ _ _ _ _ _ _ _ hr.clear]
  simp only [M11, if_pos hs]
  rw [List.map_congr_left (fun x hx => near_FF W.lamb (hr x hx) a1 a2 c mu i j),
    List.map_congr_left (fun k _ => wave_FF W.lamb a1 a2 c r k i j), List.sum_map_mul_left,
    List.sum_map_mul_left]
  simp only [Pi.add_def]
  ring

theorem M12_pair (i j : Fin 3) : M12 W i j r s a1 a2 c mu
    = c * greenResponse (imageSum W.lamb W.X) a1 a2 (.force i) (.torque j) r := by
  rw [imageSum_response _ _ _ _ _ _ hr.clear]
  simp only [M12, if_pos hs]
  rw [List.map_congr_left (fun x hx => near_FT W.lamb (hr x hx) a1 a2 c mu i j), List.sum_map_mul_left]
  simp only [Pi.add_def]

theorem M13_pair (i j k : Fin 3) : M13 W i j k r s a1 a2 c mu
    = c * greenResponse (imageSum W.lamb W.X) a1 a2 (.force i) (.stress j k) r := by
  rw [imageSum_response _ _ _ _ _ _ hr.clear]
  simp only [M13, if_pos hs]
  rw [List.map_congr_left (fun x hx => near_FS W.lamb (hr x hx) a1 a2 c mu i j k), List.sum_map_mul_left]
  simp only [Pi.add_def]

theorem M22_pair (i j : Fin 3) : M22 W i j r s a1 a2 c mu
    = c * greenResponse (boxJ W.lamb (W.L ^ 3) W.X W.K) a1 a2 (.torque i) (.torque j) r := by
  rw [boxJ_response _ _ _ _ _ _ _ _ hr.clear]
  simp only [M22, if_pos hs]
  rw [List.map_congr_left (fun x hx => near_TT W.lamb (hr x hx) a1 a2 c mu i j),
    List.map_congr_left (fun k _ => wave_TT W.lamb a1 a2 c r k i j), List.sum_map_mul_left,
    List.sum_map_mul_left]
  simp only [Pi.add_def]
  ring

theorem M23_pair (i j k : Fin 3) : M23 W i j k r s a1 a2 c mu
    = c * greenResponse (boxJ W.lamb (W.L ^ 3) W.X W.K) a1 (Real.sqrt (5 / 3) * a2)
      (.torque i) (.stress j k) r := by
  rw [boxJ_response _ _ _ _ _ _ _ _ hr.clear]
  simp only [M23, if_pos hs]
  rw [List.map_congr_left (fun x hx => near_TS W.lamb (hr x hx) a1 a2 c mu i j k),
    List.map_congr_left (fun q _ => wave_TS W.lamb a1 a2 c r q i j k), List.sum_map_mul_left,
    List.sum_map_mul_left]
  simp only [Pi.add_def]
  ring

theorem M33_pair (i j k l : Fin 3) : M33 W i j k l r s a1 a2 c mu
    = c * greenResponse (boxJ W.lamb (W.L ^ 3) W.X W.K) a1 a2 (.stress i j) (.stress k l) r := by
  rw [boxJ_response _ _ _ _ _ _ _ _ hr.clear]
  simp only [M33, if_pos hs]
  rw [List.map_congr_left (fun x hx => near_SS W.lamb (hr x hx) a1 a2 c mu i j k l),
    List.map_congr_left (fun q _ => wave_SS W.lamb a1 a2 c r q i j k l), List.sum_map_mul_left,
    List.sum_map_mul_left]
  simp only [Pi.add_def]
  ring

end pair

end SD.Ewald
