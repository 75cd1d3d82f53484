import Verif.Lemmas.Sphere

/-!
# Averages over all directions of products of components

Products of up to four components of the direction, weighted with a function of the angle to an axis.
-/

set_option autoImplicit false

namespace SD.Sph

open Spec MeasureTheory Set Metric

/-- Unit vector of the first axis. -/
def ax : Fin 3 → ℝ := ![1, 0, 0]

theorem dt3 (x y : Fin 3 → ℝ) : dt x y = x 0 * y 0 + x 1 * y 1 + x 2 * y 2 := by
  unfold dt; rw [Fin.sum_univ_three]

theorem dt_comm (x y : Fin 3 → ℝ) : dt x y = dt y x := by rw [dt3, dt3]; ring

theorem dt_meas (x : Fin 3 → ℝ) : Measurable fun n => dt n x := by unfold dt; fun_prop

/-- Every direction is the image of the first axis. -/
theorem exists_axis {e : Fin 3 → ℝ} (he : dt e e = 1) : ∃ Q, Orthogonal Q ∧ turnVec Q ax = e := by
  rw [dt3] at he
  by_cases h : e 0 = 1
  · refine ⟨fun i j => dlt i j, ?_, ?_⟩
    · intro i j
      fin_cases i <;> fin_cases j <;> simp [dlt, Fin.sum_univ_three]
    · have h1 : e 1 = 0 := by nlinarith [sq_nonneg (e 1), sq_nonneg (e 2)]
      have h2 : e 2 = 0 := by nlinarith [sq_nonneg (e 1), sq_nonneg (e 2)]
      funext i
      fin_cases i <;> simp [turnVec, dlt, ax, Fin.sum_univ_three, h, h1, h2]
  · have hne : 1 - e 0 ≠ 0 := fun h' => h (by linarith)
    refine ⟨fun i j => dlt i j - (ax i - e i) * (ax j - e j) / (1 - e 0), ?_, ?_⟩
    · intro i j
      fin_cases i <;> fin_cases j <;> simp [dlt, Fin.sum_univ_three, ax] <;> field_simp <;>
        first
          | linear_combination (1 - e 0) ^ 2 * he
          | linear_combination e 1 ^ 2 * he
          | linear_combination e 2 ^ 2 * he
          | linear_combination -(1 - e 0) * e 1 * he
          | linear_combination -(1 - e 0) * e 2 * he
          | linear_combination e 1 * e 2 * he
          | linear_combination -e 1 * he
          | linear_combination -e 2 * he
          | linear_combination he
    · funext i
      fin_cases i <;> simp [turnVec, dlt, ax, Fin.sum_univ_three] <;> field_simp

/-- The transposed matrix is orthogonal. -/
theorem orth_transpose {Q : Fin 3 → Fin 3 → ℝ} (hQ : Orthogonal Q) : Orthogonal fun i j => Q j i :=
  fun i j => orth_col hQ i j

theorem turn_back {Q : Fin 3 → Fin 3 → ℝ} (hQ : Orthogonal Q) (x : Fin 3 → ℝ) :
    turnVec Q (turnVec (fun i j => Q j i) x) = x := by
  funext i
  have h := fun j => hQ i j
  simp only [turnVec, Fin.sum_univ_three] at *
  have h0 := h 0
  have h1 := h 1
  have h2 := h 2
  fin_cases i <;> simp [dlt] at h0 h1 h2 ⊢ <;> linear_combination x 0 * h0 + x 1 * h1 + x 2 * h2

/-! ## Averages -/

/-- A bounded measurable weight. -/
structure Weight (g : ℝ → ℝ) : Prop where
  meas : Measurable g
  bdd : ∃ C, ∀ c, |g c| ≤ C

/-- A measurable function of the direction that is bounded on the sphere. -/
theorem sph_integrable {G : (Fin 3 → ℝ) → ℝ} (hG : Measurable G) {C : ℝ} (h : ∀ n, dt n n = 1 → |G n| ≤ C) :
    Integrable G sph := by
  refine Integrable.of_bound hG.aestronglyMeasurable C ?_
  filter_upwards [sph_unit] with n hn
  refine h n ?_
  rw [dt3]
  rw [Fin.sum_univ_three] at hn
  linarith

theorem dt_le {n : Fin 3 → ℝ} (hn : dt n n = 1) (x : Fin 3 → ℝ) : |dt n x| ≤ len x := by
  unfold len
  apply Real.abs_le_sqrt
  rw [dt3] at hn
  rw [dt3, Fin.sum_univ_three]
  have e : (x 0 ^ 2 + x 1 ^ 2 + x 2 ^ 2) * (n 0 * n 0 + n 1 * n 1 + n 2 * n 2)
      - (n 0 * x 0 + n 1 * x 1 + n 2 * x 2) ^ 2
      = (n 0 * x 1 - n 1 * x 0) ^ 2 + (n 0 * x 2 - n 2 * x 0) ^ 2 + (n 1 * x 2 - n 2 * x 1) ^ 2 := by ring
  rw [hn, mul_one] at e
  linarith [sq_nonneg (n 0 * x 1 - n 1 * x 0), sq_nonneg (n 0 * x 2 - n 2 * x 0), sq_nonneg (n 1 * x 2 - n 2 * x 1)]

/-- Moments of the weight along the axis. -/
noncomputable def mom (g : ℝ → ℝ) (k : ℕ) : ℝ := 2 * Real.pi * ∫ c in (-1 : ℝ)..1, c ^ k * g c

theorem axis_moment {g : ℝ → ℝ} (hg : Weight g) (k : ℕ) : ∫ n, n 0 ^ k * g (n 0) ∂sph = mom g k := by
  have hm : Measurable fun c : ℝ => c ^ k * g c := (measurable_id.pow_const k).mul hg.meas
  have h := integral_map (μ := sph) (φ := fun n => n 0) (f := fun c : ℝ => c ^ k * g c)
    (measurable_pi_apply 0).aemeasurable hm.aestronglyMeasurable
  rw [sph_axis, integral_smul_measure, ENNReal.toReal_ofReal (by have := Real.pi_pos; positivity)] at h
  rw [← h]
  unfold mom
  rw [intervalIntegral.integral_of_le (by norm_num), integral_Icc_eq_integral_Ioc]
  rfl

/-- Rotation about the first axis. -/
def rot (c s : ℝ) : Fin 3 → Fin 3 → ℝ := ![![1, 0, 0], ![0, c, -s], ![0, s, c]]

theorem rot_orth {c s : ℝ} (h : c * c + s * s = 1) : Orthogonal (rot c s) := by
  intro i j
  fin_cases i <;> fin_cases j <;> simp [rot, dlt, Fin.sum_univ_three] <;> linarith

theorem turn_rot (c s : ℝ) (n : Fin 3 → ℝ) :
    turnVec (rot c s) n 0 = n 0 ∧ turnVec (rot c s) n 1 = c * n 1 - s * n 2 ∧ turnVec (rot c s) n 2 = s * n 1 + c * n 2 := by
  simp [turnVec, rot, Fin.sum_univ_three]
  ring

/-- The average over the eight rotations about the first axis by multiples of 45 degrees. -/
noncomputable def eight (G : (Fin 3 → ℝ) → ℝ) (n : Fin 3 → ℝ) : ℝ :=
  let q := Real.sqrt 2 / 2
  (G (turnVec (rot 1 0) n) + G (turnVec (rot (-1) 0) n) + G (turnVec (rot 0 1) n) + G (turnVec (rot 0 (-1)) n)
    + G (turnVec (rot q q) n) + G (turnVec (rot (-q) q) n) + G (turnVec (rot q (-q)) n) + G (turnVec (rot (-q) (-q)) n)) / 8

theorem integral_eight {G : (Fin 3 → ℝ) → ℝ} (hG : Measurable G) (hi : Integrable G sph) :
    ∫ n, G n ∂sph = ∫ n, eight G n ∂sph := by
  have q2 : Real.sqrt 2 * Real.sqrt 2 = 2 := Real.mul_self_sqrt (by norm_num)
  have i : ∀ {c s : ℝ}, c * c + s * s = 1 → Integrable (fun n => G (turnVec (rot c s) n)) sph ∧
      ∫ n, G (turnVec (rot c s) n) ∂sph = ∫ n, G n ∂sph := by
    intro c s h
    refine ⟨?_, integral_turn (rot_orth h) hG⟩
    have : MeasurePreserving (turnVec (rot c s)) sph sph := ⟨measurable_turn _, sph_turn (rot_orth h)⟩
    exact this.integrable_comp_of_integrable hi
  have h1 := i (c := 1) (s := 0) (by norm_num)
  have h2 := i (c := -1) (s := 0) (by norm_num)
  have h3 := i (c := 0) (s := 1) (by norm_num)
  have h4 := i (c := 0) (s := -1) (by norm_num)
  have h5 := i (c := Real.sqrt 2 / 2) (s := Real.sqrt 2 / 2) (by linarith)
  have h6 := i (c := -(Real.sqrt 2 / 2)) (s := Real.sqrt 2 / 2) (by linarith)
  have h7 := i (c := Real.sqrt 2 / 2) (s := -(Real.sqrt 2 / 2)) (by linarith)
  have h8 := i (c := -(Real.sqrt 2 / 2)) (s := -(Real.sqrt 2 / 2)) (by linarith)
  have add : ∀ {F H : (Fin 3 → ℝ) → ℝ} {k : ℝ}, (Integrable F sph ∧ ∫ n, F n ∂sph = k * ∫ n, G n ∂sph) →
      (Integrable H sph ∧ ∫ n, H n ∂sph = ∫ n, G n ∂sph) →
      Integrable (fun n => F n + H n) sph ∧ ∫ n, F n + H n ∂sph = (k + 1) * ∫ n, G n ∂sph := by
    intro F H k hF hH
    refine ⟨hF.1.add hH.1, ?_⟩
    rw [integral_add hF.1 hH.1, hF.2, hH.2]
    ring
  have h0 : Integrable (fun n => G (turnVec (rot 1 0) n)) sph ∧
      ∫ n, G (turnVec (rot 1 0) n) ∂sph = 1 * ∫ n, G n ∂sph := ⟨h1.1, by rw [h1.2, one_mul]⟩
  have t := (add (add (add (add (add (add (add h0 h2) h3) h4) h5) h6) h7) h8).2
  unfold eight
  dsimp only
  rw [integral_div, t]
  ring

theorem unit_ae : ∀ᵐ n ∂sph, n 1 ^ 2 + n 2 ^ 2 = 1 - n 0 ^ 2 := by
  filter_upwards [sph_unit] with n hn
  rw [Fin.sum_univ_three] at hn
  linarith

theorem eight_one (x : Fin 3 → ℝ) (g : ℝ → ℝ) (n : Fin 3 → ℝ) :
    eight (fun n => dt n x * g (n 0)) n = x 0 * n 0 * g (n 0) := by
  unfold eight
  simp only [dt3, turn_rot]
  ring

theorem eight_two (x y : Fin 3 → ℝ) (g : ℝ → ℝ) (n : Fin 3 → ℝ) :
    eight (fun n => dt n x * dt n y * g (n 0)) n
      = (x 0 * y 0 * n 0 ^ 2 + (x 1 * y 1 + x 2 * y 2) * ((n 1 ^ 2 + n 2 ^ 2) / 2)) * g (n 0) := by
  have q2 : Real.sqrt 2 ^ 2 = 2 := Real.sq_sqrt (by norm_num)
  unfold eight
  simp only [dt3, turn_rot]
  ring_nf
  rw [q2]
  ring

theorem eight_three (x y z : Fin 3 → ℝ) (g : ℝ → ℝ) (n : Fin 3 → ℝ) :
    eight (fun n => dt n x * dt n y * dt n z * g (n 0)) n
      = (x 0 * y 0 * z 0 * n 0 ^ 3 + ((x 1 * y 1 + x 2 * y 2) * z 0 + (x 1 * z 1 + x 2 * z 2) * y 0
          + (y 1 * z 1 + y 2 * z 2) * x 0) * (n 0 * ((n 1 ^ 2 + n 2 ^ 2) / 2))) * g (n 0) := by
  have q2 : Real.sqrt 2 ^ 2 = 2 := Real.sq_sqrt (by norm_num)
  unfold eight
  simp only [dt3, turn_rot]
  ring_nf
  rw [q2]
  ring

theorem eight_four (x y z w : Fin 3 → ℝ) (g : ℝ → ℝ) (n : Fin 3 → ℝ) :
    eight (fun n => dt n x * dt n y * dt n z * dt n w * g (n 0)) n
      = (x 0 * y 0 * z 0 * w 0 * n 0 ^ 4
        + ((x 1 * y 1 + x 2 * y 2) * (z 0 * w 0) + (x 1 * z 1 + x 2 * z 2) * (y 0 * w 0)
          + (x 1 * w 1 + x 2 * w 2) * (y 0 * z 0) + (y 1 * z 1 + y 2 * z 2) * (x 0 * w 0)
          + (y 1 * w 1 + y 2 * w 2) * (x 0 * z 0) + (z 1 * w 1 + z 2 * w 2) * (x 0 * y 0))
          * (n 0 ^ 2 * ((n 1 ^ 2 + n 2 ^ 2) / 2))
        + ((x 1 * y 1 + x 2 * y 2) * (z 1 * w 1 + z 2 * w 2) + (x 1 * z 1 + x 2 * z 2) * (y 1 * w 1 + y 2 * w 2)
          + (x 1 * w 1 + x 2 * w 2) * (y 1 * z 1 + y 2 * z 2)) * ((n 1 ^ 2 + n 2 ^ 2) ^ 2 / 8)) * g (n 0) := by
  have q2 : Real.sqrt 2 ^ 2 = 2 := Real.sq_sqrt (by norm_num)
  have q4 : Real.sqrt 2 ^ 4 = 4 := by
    rw [show Real.sqrt 2 ^ 4 = (Real.sqrt 2 ^ 2) ^ 2 by ring, q2]; norm_num
  unfold eight
  simp only [dt3, turn_rot]
  ring_nf
  rw [q2, q4]
  ring

/-! ## Along the first axis -/

theorem axis_int {g : ℝ → ℝ} (hg : Weight g) (k : ℕ) : Integrable (fun n => n 0 ^ k * g (n 0)) sph := by
  obtain ⟨C, hC⟩ := hg.bdd
  refine sph_integrable (C := C) (((measurable_pi_apply 0).pow_const k).mul (hg.meas.comp (measurable_pi_apply 0)))
    fun n hn => ?_
  rw [dt3] at hn
  have h1 : |n 0| ≤ 1 := by
    rw [abs_le_one_iff_mul_self_le_one]
    nlinarith [mul_self_nonneg (n 1), mul_self_nonneg (n 2)]
  rw [abs_mul, abs_pow]
  calc |n 0| ^ k * |g (n 0)| ≤ 1 * |g (n 0)| := by
        gcongr
        exact pow_le_one₀ (abs_nonneg _) h1
    _ ≤ C := by rw [one_mul]; exact hC _

/-- Polynomials in the first component. -/
theorem axis_poly {g : ℝ → ℝ} (hg : Weight g) (a0 a1 a2 a3 a4 : ℝ) {G : (Fin 3 → ℝ) → ℝ}
    (hG : ∀ᵐ n ∂sph, G n = a0 * (n 0 ^ 0 * g (n 0)) + a1 * (n 0 ^ 1 * g (n 0)) + a2 * (n 0 ^ 2 * g (n 0))
      + a3 * (n 0 ^ 3 * g (n 0)) + a4 * (n 0 ^ 4 * g (n 0))) :
    ∫ n, G n ∂sph = a0 * mom g 0 + a1 * mom g 1 + a2 * mom g 2 + a3 * mom g 3 + a4 * mom g 4 := by
  have i := fun k => axis_int hg k
  rw [integral_congr_ae hG, integral_add, integral_add, integral_add, integral_add, integral_const_mul,
    integral_const_mul, integral_const_mul, integral_const_mul, integral_const_mul, axis_moment hg, axis_moment hg,
    axis_moment hg, axis_moment hg, axis_moment hg]
  all_goals fun_prop

theorem int_mul {G : (Fin 3 → ℝ) → ℝ} (h : Integrable G sph) (x : Fin 3 → ℝ) :
    Integrable (fun n => dt n x * G n) sph := by
  refine h.bdd_mul (c := len x) (dt_meas x).aestronglyMeasurable ?_
  filter_upwards [sph_unit] with n hn
  refine dt_le ?_ x
  rw [dt3]
  rw [Fin.sum_univ_three] at hn
  linarith

theorem weight_int {g : ℝ → ℝ} (hg : Weight g) (r : Fin 3 → ℝ) : Integrable (fun n => g (dt n r)) sph := by
  obtain ⟨C, hC⟩ := hg.bdd
  exact sph_integrable (C := C) (hg.meas.comp (dt_meas r)) fun n _ => hC _

theorem dt_ax (n : Fin 3 → ℝ) : dt n ax = n 0 := by simp [dt3, ax]

theorem axis0 {g : ℝ → ℝ} (hg : Weight g) : ∫ n, g (n 0) ∂sph = mom g 0 := by
  rw [axis_poly hg 1 0 0 0 0 (Filter.Eventually.of_forall fun n => by ring)]
  ring

theorem axis1 {g : ℝ → ℝ} (hg : Weight g) (x : Fin 3 → ℝ) :
    ∫ n, dt n x * g (n 0) ∂sph = x 0 * mom g 1 := by
  have hi := int_mul (weight_int hg ax) x
  simp only [dt_ax] at hi
  have hm : Measurable fun n => dt n x * g (n 0) := by
    have := hg.meas
    unfold dt
    fun_prop
  rw [integral_eight hm hi,
    axis_poly hg 0 (x 0) 0 0 0 (Filter.Eventually.of_forall fun n => by rw [eight_one]; ring)]
  ring

theorem axis2 {g : ℝ → ℝ} (hg : Weight g) (x y : Fin 3 → ℝ) :
    ∫ n, dt n x * dt n y * g (n 0) ∂sph
      = x 0 * y 0 * mom g 2 + (x 1 * y 1 + x 2 * y 2) / 2 * (mom g 0 - mom g 2) := by
  have hi := int_mul (int_mul (weight_int hg ax) y) x
  simp only [dt_ax, ← mul_assoc] at hi
  have hm : Measurable fun n => dt n x * dt n y * g (n 0) := by
    have := hg.meas
    unfold dt
    fun_prop
  rw [integral_eight hm hi,
    axis_poly hg ((x 1 * y 1 + x 2 * y 2) / 2) 0 (x 0 * y 0 - (x 1 * y 1 + x 2 * y 2) / 2) 0 0 (by
      filter_upwards [unit_ae] with n hn
      rw [eight_two, hn]; ring)]
  ring

theorem axis3 {g : ℝ → ℝ} (hg : Weight g) (x y z : Fin 3 → ℝ) :
    ∫ n, dt n x * dt n y * dt n z * g (n 0) ∂sph
      = x 0 * y 0 * z 0 * mom g 3 + ((x 1 * y 1 + x 2 * y 2) * z 0 + (x 1 * z 1 + x 2 * z 2) * y 0
          + (y 1 * z 1 + y 2 * z 2) * x 0) / 2 * (mom g 1 - mom g 3) := by
  have hi := int_mul (int_mul (int_mul (weight_int hg ax) z) y) x
  simp only [dt_ax, ← mul_assoc] at hi
  have hm : Measurable fun n => dt n x * dt n y * dt n z * g (n 0) := by
    have := hg.meas
    unfold dt
    fun_prop
  rw [integral_eight hm hi,
    axis_poly hg 0 (((x 1 * y 1 + x 2 * y 2) * z 0 + (x 1 * z 1 + x 2 * z 2) * y 0
          + (y 1 * z 1 + y 2 * z 2) * x 0) / 2) 0 (x 0 * y 0 * z 0 - ((x 1 * y 1 + x 2 * y 2) * z 0
          + (x 1 * z 1 + x 2 * z 2) * y 0 + (y 1 * z 1 + y 2 * z 2) * x 0) / 2) 0 (by
      filter_upwards [unit_ae] with n hn
      rw [eight_three, hn]; ring)]
  ring

theorem axis4 {g : ℝ → ℝ} (hg : Weight g) (x y z w : Fin 3 → ℝ) :
    ∫ n, dt n x * dt n y * dt n z * dt n w * g (n 0) ∂sph
      = x 0 * y 0 * z 0 * w 0 * mom g 4
        + ((x 1 * y 1 + x 2 * y 2) * (z 0 * w 0) + (x 1 * z 1 + x 2 * z 2) * (y 0 * w 0)
          + (x 1 * w 1 + x 2 * w 2) * (y 0 * z 0) + (y 1 * z 1 + y 2 * z 2) * (x 0 * w 0)
          + (y 1 * w 1 + y 2 * w 2) * (x 0 * z 0) + (z 1 * w 1 + z 2 * w 2) * (x 0 * y 0)) / 2
          * (mom g 2 - mom g 4)
        + ((x 1 * y 1 + x 2 * y 2) * (z 1 * w 1 + z 2 * w 2) + (x 1 * z 1 + x 2 * z 2) * (y 1 * w 1 + y 2 * w 2)
          + (x 1 * w 1 + x 2 * w 2) * (y 1 * z 1 + y 2 * z 2)) / 8 * (mom g 0 - 2 * mom g 2 + mom g 4) := by
  have hi := int_mul (int_mul (int_mul (int_mul (weight_int hg ax) w) z) y) x
  simp only [dt_ax, ← mul_assoc] at hi
  have hm : Measurable fun n => dt n x * dt n y * dt n z * dt n w * g (n 0) := by
    have := hg.meas
    unfold dt
    fun_prop
  rw [integral_eight hm hi]
  set A := ((x 1 * y 1 + x 2 * y 2) * (z 0 * w 0) + (x 1 * z 1 + x 2 * z 2) * (y 0 * w 0)
          + (x 1 * w 1 + x 2 * w 2) * (y 0 * z 0) + (y 1 * z 1 + y 2 * z 2) * (x 0 * w 0)
          + (y 1 * w 1 + y 2 * w 2) * (x 0 * z 0) + (z 1 * w 1 + z 2 * w 2) * (x 0 * y 0))
  set B := ((x 1 * y 1 + x 2 * y 2) * (z 1 * w 1 + z 2 * w 2) + (x 1 * z 1 + x 2 * z 2) * (y 1 * w 1 + y 2 * w 2)
          + (x 1 * w 1 + x 2 * w 2) * (y 1 * z 1 + y 2 * z 2))
  rw [axis_poly hg (B / 8) 0 (A / 2 - B / 4) 0 (x 0 * y 0 * z 0 * w 0 - A / 2 + B / 8) (by
      filter_upwards [unit_ae] with n hn
      rw [eight_four, hn]; ring)]
  ring

/-! ## Along any axis -/

/-- Turning the axis of the weight. -/
theorem zonal_turn {r : Fin 3 → ℝ} {s : ℝ} (hs : s ≠ 0) (hr : dt r r = s ^ 2) :
    ∃ Q, Orthogonal Q ∧ (∀ n, dt (turnVec Q n) r = s * n 0) ∧
      (∀ x n, dt (turnVec Q n) x = dt n (turnVec (fun i j => Q j i) x)) ∧
      (∀ x, turnVec (fun i j => Q j i) x 0 = dt r x / s) ∧
      ∀ x y, turnVec (fun i j => Q j i) x 1 * turnVec (fun i j => Q j i) y 1
        + turnVec (fun i j => Q j i) x 2 * turnVec (fun i j => Q j i) y 2 = dt x y - dt r x / s * (dt r y / s) := by
  have he : dt (fun i => r i / s) (fun i => r i / s) = 1 := by
    rw [dt3] at hr ⊢
    field_simp
    linarith
  obtain ⟨Q, hQ, hax⟩ := exists_axis he
  have h1 : ∀ x n, dt (turnVec Q n) x = dt n (turnVec (fun i j => Q j i) x) := by
    intro x n
    simp only [dt3, turnVec, Fin.sum_univ_three]
    ring
  have h2 : ∀ x, turnVec (fun i j => Q j i) x 0 = dt r x / s := by
    intro x
    have := h1 x ax
    rw [hax, dt_comm ax, dt_ax] at this
    rw [← this, dt3, dt3]
    field_simp
  refine ⟨Q, hQ, fun n => ?_, h1, h2, fun x y => ?_⟩
  · have : r = fun i => s * turnVec Q ax i := by
      rw [hax]; funext i; field_simp
    rw [this]
    have e : dt (turnVec Q n) (turnVec Q ax) = n 0 := by
      rw [dt_turn hQ, dt_ax]
    rw [dt3] at e ⊢
    linear_combination s * e
  · have e := dt_turn (orth_transpose hQ) x y
    rw [dt3 (turnVec _ x), h2 x, h2 y] at e
    linarith

section Zonal

variable {g : ℝ → ℝ} {r : Fin 3 → ℝ} {s : ℝ}

theorem zon0 (hg : Weight g) (hgs : Weight fun c => g (s * c)) (hs : s ≠ 0) (hr : dt r r = s ^ 2) :
    ∫ n, g (dt n r) ∂sph = mom (fun c => g (s * c)) 0 := by
  obtain ⟨Q, hQ, h1, -⟩ := zonal_turn hs hr
  have hm : Measurable fun n => g (dt n r) := hg.meas.comp (dt_meas r)
  rw [← integral_turn hQ hm]
  simp only [h1]
  exact axis0 hgs

theorem zon1 (hg : Weight g) (hgs : Weight fun c => g (s * c)) (hs : s ≠ 0) (hr : dt r r = s ^ 2)
    (x : Fin 3 → ℝ) : ∫ n, dt n x * g (dt n r) ∂sph = dt r x / s * mom (fun c => g (s * c)) 1 := by
  obtain ⟨Q, hQ, h1, h2, h3, h4⟩ := zonal_turn hs hr
  have hm : Measurable fun n => dt n x * g (dt n r) := (dt_meas x).mul (hg.meas.comp (dt_meas r))
  rw [← integral_turn hQ hm]
  simp only [h1, h2]
  rw [axis1 hgs, h3]

theorem zon2 (hg : Weight g) (hgs : Weight fun c => g (s * c)) (hs : s ≠ 0) (hr : dt r r = s ^ 2)
    (x y : Fin 3 → ℝ) : ∫ n, dt n x * dt n y * g (dt n r) ∂sph
      = dt r x / s * (dt r y / s) * mom (fun c => g (s * c)) 2
        + (dt x y - dt r x / s * (dt r y / s)) / 2 * (mom (fun c => g (s * c)) 0 - mom (fun c => g (s * c)) 2) := by
  obtain ⟨Q, hQ, h1, h2, h3, h4⟩ := zonal_turn hs hr
  have hm : Measurable fun n => dt n x * dt n y * g (dt n r) :=
    ((dt_meas x).mul (dt_meas y)).mul (hg.meas.comp (dt_meas r))
  rw [← integral_turn hQ hm]
  simp only [h1, h2]
  rw [axis2 hgs, h4, h3, h3]

theorem zon3 (hg : Weight g) (hgs : Weight fun c => g (s * c)) (hs : s ≠ 0) (hr : dt r r = s ^ 2)
    (x y z : Fin 3 → ℝ) : ∫ n, dt n x * dt n y * dt n z * g (dt n r) ∂sph
      = dt r x / s * (dt r y / s) * (dt r z / s) * mom (fun c => g (s * c)) 3
        + ((dt x y - dt r x / s * (dt r y / s)) * (dt r z / s) + (dt x z - dt r x / s * (dt r z / s)) * (dt r y / s)
          + (dt y z - dt r y / s * (dt r z / s)) * (dt r x / s)) / 2
          * (mom (fun c => g (s * c)) 1 - mom (fun c => g (s * c)) 3) := by
  obtain ⟨Q, hQ, h1, h2, h3, h4⟩ := zonal_turn hs hr
  have hm : Measurable fun n => dt n x * dt n y * dt n z * g (dt n r) :=
    (((dt_meas x).mul (dt_meas y)).mul (dt_meas z)).mul (hg.meas.comp (dt_meas r))
  rw [← integral_turn hQ hm]
  simp only [h1, h2]
  rw [axis3 hgs, h4, h4, h4, h3, h3, h3]

theorem zon4 (hg : Weight g) (hgs : Weight fun c => g (s * c)) (hs : s ≠ 0) (hr : dt r r = s ^ 2)
    (x y z w : Fin 3 → ℝ) : ∫ n, dt n x * dt n y * dt n z * dt n w * g (dt n r) ∂sph
      = dt r x / s * (dt r y / s) * (dt r z / s) * (dt r w / s) * mom (fun c => g (s * c)) 4
        + ((dt x y - dt r x / s * (dt r y / s)) * (dt r z / s * (dt r w / s))
          + (dt x z - dt r x / s * (dt r z / s)) * (dt r y / s * (dt r w / s))
          + (dt x w - dt r x / s * (dt r w / s)) * (dt r y / s * (dt r z / s))
          + (dt y z - dt r y / s * (dt r z / s)) * (dt r x / s * (dt r w / s))
          + (dt y w - dt r y / s * (dt r w / s)) * (dt r x / s * (dt r z / s))
          + (dt z w - dt r z / s * (dt r w / s)) * (dt r x / s * (dt r y / s))) / 2
          * (mom (fun c => g (s * c)) 2 - mom (fun c => g (s * c)) 4)
        + ((dt x y - dt r x / s * (dt r y / s)) * (dt z w - dt r z / s * (dt r w / s))
          + (dt x z - dt r x / s * (dt r z / s)) * (dt y w - dt r y / s * (dt r w / s))
          + (dt x w - dt r x / s * (dt r w / s)) * (dt y z - dt r y / s * (dt r z / s))) / 8
          * (mom (fun c => g (s * c)) 0 - 2 * mom (fun c => g (s * c)) 2 + mom (fun c => g (s * c)) 4) := by
  obtain ⟨Q, hQ, h1, h2, h3, h4⟩ := zonal_turn hs hr
  have hm : Measurable fun n => dt n x * dt n y * dt n z * dt n w * g (dt n r) :=
    ((((dt_meas x).mul (dt_meas y)).mul (dt_meas z)).mul (dt_meas w)).mul (hg.meas.comp (dt_meas r))
  rw [← integral_turn hQ hm]
  simp only [h1, h2]
  rw [axis4 hgs]
  simp only [h4, h3]

end Zonal

end SD.Sph
