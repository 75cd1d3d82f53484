import Verif.Lemmas.Hat
import Verif.Lemmas.MinfEntry

/-!
# The far-field response of two separate spheres as an overlap integral

Project the load of each sphere on a direction `n`: the response is the average over all directions of
the overlap of the two projected loads across `n`.
-/

set_option autoImplicit false

namespace SD.Sph

open Spec MeasureTheory Set Metric

/-- Projected load: vector part. -/
noncomputable def lfld : Load → (Fin 3 → ℝ) → Fin 3 → ℝ
  | .force j, _ => dlt j
  | .torque j, n => fun i => ∑ k, eps i j k * n k
  | .stress j k, n => fun i => (dlt j i * n k + dlt k i * n j) / 2

/-- Projected load: power of the coordinate. -/
def ldeg : Load → ℕ
  | .force _ => 0
  | .torque _ => 1
  | .stress _ _ => 1

/-- Projected load: factor. -/
noncomputable def lwt (a : ℝ) : Load → ℝ
  | .force _ => 1 / (2 * a)
  | .torque _ => 3 / (4 * a ^ 3)
  | .stress _ _ => 3 / (2 * a ^ 3)

/-- Product of the parts across `n`. -/
noncomputable def kerK (u v n : Fin 3 → ℝ) : ℝ := dt u v - dt n u * dt n v

theorem kerK_symm (u v n : Fin 3 → ℝ) : kerK u v n = kerK v u n := by
  unfold kerK; rw [dt_comm u v]; ring

/-- The overlap integral. -/
noncomputable def ovl (a b : ℝ) (l1 l2 : Load) (r : Fin 3 → ℝ) : ℝ :=
  lwt a l1 * lwt b l2 * ∫ n, kerK (lfld l1 n) (lfld l2 n) n * hat a b (ldeg l1) (ldeg l2) (dt n r) ∂sph

theorem hat_swap (a b : ℝ) (k l : ℕ) (τ : ℝ) : hat a b k l τ = hat b a l k (-τ) := by
  unfold hat
  rw [← integral_add_right_eq_self (fun t => box b l t * box a k (t + -τ)) τ]
  congr 1
  funext t
  rw [add_neg_cancel_right, mul_comm]

theorem ovl_symm (a b : ℝ) (l1 l2 : Load) (r : Fin 3 → ℝ) : ovl a b l1 l2 r = ovl b a l2 l1 (-r) := by
  unfold ovl
  rw [mul_comm (lwt a l1)]
  congr 2
  funext n
  rw [kerK_symm, hat_swap]
  congr 2
  rw [dt3, dt3]
  simp only [Pi.neg_apply]
  ring

theorem dt_dlt (n : Fin 3 → ℝ) (i : Fin 3) : dt n (dlt i) = n i := by
  rw [dt3]; fin_cases i <;> simp [dlt]

theorem dt_dlt' (n : Fin 3 → ℝ) (i : Fin 3) : dt (dlt i) n = n i := by rw [dt_comm, dt_dlt]

theorem cross_perp (n : Fin 3 → ℝ) (j : Fin 3) : dt n (fun i => ∑ k, eps i j k * n k) = 0 := by
  rw [dt3]; fin_cases j <;> simp [eps, Fin.sum_univ_three] <;> ring

theorem dt_self_ae : ∀ᵐ n ∂sph, dt n n = 1 := by
  filter_upwards [sph_unit] with n hn
  rw [dt3]
  rw [Fin.sum_univ_three] at hn
  linarith

theorem ker_FF (n : Fin 3 → ℝ) (i j : Fin 3) :
    kerK (lfld (.force i) n) (lfld (.force j) n) n = dt (dlt i) (dlt j) - dt n (dlt i) * dt n (dlt j) := rfl

theorem ker_FT (n : Fin 3 → ℝ) (i j : Fin 3) :
    kerK (lfld (.force i) n) (lfld (.torque j) n) n = dt n (eps i j) := by
  show dt (dlt i) (fun i => ∑ k, eps i j k * n k) - dt n (dlt i) * dt n (fun i => ∑ k, eps i j k * n k) = _
  rw [cross_perp, dt_dlt', mul_zero, sub_zero]
  simp only [dt]
  exact Finset.sum_congr rfl fun k _ => mul_comm _ _

theorem dt_str (x n : Fin 3 → ℝ) (j k : Fin 3) :
    dt x (fun i => (dlt j i * n k + dlt k i * n j) / 2)
      = (dt x (dlt j) * dt n (dlt k) + dt x (dlt k) * dt n (dlt j)) / 2 := by
  rw [dt_dlt n, dt_dlt n]
  simp only [dt3]
  ring

theorem ker_FS (n : Fin 3 → ℝ) (i j k : Fin 3) :
    kerK (lfld (.force i) n) (lfld (.stress j k) n) n
      = dt (dlt i) (dlt j) / 2 * dt n (dlt k) + dt (dlt i) (dlt k) / 2 * dt n (dlt j)
        - dt n (dlt i) * dt n (dlt j) * dt n (dlt k) := by
  show dt (dlt i) (fun i => (dlt j i * n k + dlt k i * n j) / 2)
    - dt n (dlt i) * dt n (fun i => (dlt j i * n k + dlt k i * n j) / 2) = _
  rw [dt_str, dt_str]
  ring

theorem ker_TT (n : Fin 3 → ℝ) (hn : dt n n = 1) (i j : Fin 3) :
    kerK (lfld (.torque i) n) (lfld (.torque j) n) n = dt (dlt i) (dlt j) - dt n (dlt i) * dt n (dlt j) := by
  show dt (fun m => ∑ k, eps m i k * n k) (fun m => ∑ k, eps m j k * n k)
    - dt n (fun m => ∑ k, eps m i k * n k) * dt n (fun m => ∑ k, eps m j k * n k) = _
  rw [cross_perp, zero_mul, sub_zero, dt_dlt, dt_dlt]
  rw [dt3] at hn
  simp only [dt3]
  fin_cases i <;> fin_cases j <;> simp [eps, dlt, Fin.sum_univ_three] <;> linarith

theorem ker_TS (n : Fin 3 → ℝ) (i j k : Fin 3) :
    kerK (lfld (.torque i) n) (lfld (.stress j k) n) n
      = 1 / 2 * (dt n (eps j i) * dt n (dlt k)) + 1 / 2 * (dt n (eps k i) * dt n (dlt j)) := by
  show dt (fun m => ∑ k, eps m i k * n k) (fun i => (dlt j i * n k + dlt k i * n j) / 2)
    - dt n (fun m => ∑ k, eps m i k * n k) * _ = _
  rw [cross_perp, zero_mul, sub_zero, dt_str]
  have e : ∀ m, ∑ k, eps m i k * n k = dt n (eps m i) := by
    intro m
    simp only [dt]
    exact Finset.sum_congr rfl fun k _ => mul_comm _ _
  have e' : ∀ m, dt (fun m => ∑ k, eps m i k * n k) (dlt m) = dt n (eps m i) := fun m => by rw [dt_dlt, e]
  rw [e', e']
  ring

theorem ker_SS (n : Fin 3 → ℝ) (i j k l : Fin 3) :
    kerK (lfld (.stress i j) n) (lfld (.stress k l) n) n
      = dt (dlt i) (dlt k) / 4 * (dt n (dlt j) * dt n (dlt l)) + dt (dlt i) (dlt l) / 4 * (dt n (dlt j) * dt n (dlt k))
        + dt (dlt j) (dlt k) / 4 * (dt n (dlt i) * dt n (dlt l)) + dt (dlt j) (dlt l) / 4 * (dt n (dlt i) * dt n (dlt k))
        - dt n (dlt i) * dt n (dlt j) * dt n (dlt k) * dt n (dlt l) := by
  show dt (fun m => (dlt i m * n j + dlt j m * n i) / 2) (fun m => (dlt k m * n l + dlt l m * n k) / 2)
    - dt n (fun m => (dlt i m * n j + dlt j m * n i) / 2) * dt n (fun m => (dlt k m * n l + dlt l m * n k) / 2) = _
  have e : ∀ m, dt (fun m => (dlt i m * n j + dlt j m * n i) / 2) (dlt m)
      = (dt (dlt i) (dlt m) * dt n (dlt j) + dt (dlt j) (dlt m) * dt n (dlt i)) / 2 := fun m => by
    rw [dt_comm, dt_str, dt_comm (dlt m), dt_comm (dlt m)]
  rw [dt_str, dt_str, dt_str, e, e]
  ring

section Integrals

variable {g : ℝ → ℝ} (hg : Weight g) (r : Fin 3 → ℝ)
include hg

theorem int1 (x : Fin 3 → ℝ) : Integrable (fun n => dt n x * g (dt n r)) sph := int_mul (weight_int hg r) x

theorem int2 (x y : Fin 3 → ℝ) : Integrable (fun n => dt n x * dt n y * g (dt n r)) sph := by
  have := int_mul (int1 hg r y) x
  simpa only [mul_assoc] using this

theorem int3 (x y z : Fin 3 → ℝ) : Integrable (fun n => dt n x * dt n y * dt n z * g (dt n r)) sph := by
  have := int_mul (int2 hg r y z) x
  simpa only [mul_assoc] using this

theorem int4 (x y z w : Fin 3 → ℝ) : Integrable (fun n => dt n x * dt n y * dt n z * dt n w * g (dt n r)) sph := by
  have := int_mul (int3 hg r y z w) x
  simpa only [mul_assoc] using this

end Integrals

theorem lin3 {f1 f2 f3 : (Fin 3 → ℝ) → ℝ} (h1 : Integrable f1 sph) (h2 : Integrable f2 sph) (h3 : Integrable f3 sph) :
    ∫ n, f1 n + f2 n - f3 n ∂sph = ∫ n, f1 n ∂sph + ∫ n, f2 n ∂sph - ∫ n, f3 n ∂sph := by
  refine (integral_sub (h1.add h2) h3).trans ?_
  congr 1
  exact integral_add h1 h2

theorem lin5 {f1 f2 f3 f4 f5 : (Fin 3 → ℝ) → ℝ} (h1 : Integrable f1 sph) (h2 : Integrable f2 sph)
    (h3 : Integrable f3 sph) (h4 : Integrable f4 sph) (h5 : Integrable f5 sph) :
    ∫ n, f1 n + f2 n + f3 n + f4 n - f5 n ∂sph
      = ∫ n, f1 n ∂sph + ∫ n, f2 n ∂sph + ∫ n, f3 n ∂sph + ∫ n, f4 n ∂sph - ∫ n, f5 n ∂sph := by
  rw [lin3 (f1 := fun n => f1 n + f2 n + f3 n) ((h1.add h2).add h3) h4 h5]
  congr 2
  have := integral_add (h1.add h2) h3
  refine this.trans ?_
  congr 1
  exact integral_add h1 h2

section Match

variable {a b : ℝ} {r : Fin 3 → ℝ} (ha : 0 < a) (hb : 0 < b) (hr : a + b ≤ len r)
include ha hb hr

theorem len_facts : len r ≠ 0 ∧ dt r r = len r ^ 2 ∧ r ≠ 0 := by
  have h0 : 0 < len r := by linarith
  refine ⟨h0.ne', ?_, ?_⟩
  · unfold len
    rw [Real.sq_sqrt (Finset.sum_nonneg fun i _ => sq_nonneg _)]
    unfold dt
    exact Finset.sum_congr rfl fun i _ => by ring
  · rintro rfl
    simp [len] at h0

theorem ovl_FF (i j : Fin 3) : Real.pi * response a b (.force i) (.force j) r = ovl a b (.force i) (.force j) r := by
  obtain ⟨h0, h2, hne⟩ := len_facts ha hb hr
  have W := hat_weight ha.le hb.le 0 0
  have W' := hat_weight' ha.le hb.le 0 0 (len r)
  have e1 : response a b (.force i) (.force j) r = _ := (form2_unit _ i j).symm.trans (form_FF a b hne _ _)
  unfold ovl
  simp only [ker_FF, lwt, ldeg, sub_mul]
  rw [integral_sub ((weight_int W r).const_mul _) (int2 W r _ _), integral_const_mul, zon0 W W' h0 h2,
    zon2 W W' h0 h2, mom_00_0 ha hb hr, mom_00_2 ha hb hr, e1]
  field_simp
  ring

theorem ovl_TT (i j : Fin 3) : Real.pi * response a b (.torque i) (.torque j) r = ovl a b (.torque i) (.torque j) r := by
  obtain ⟨h0, h2, hne⟩ := len_facts ha hb hr
  have W := hat_weight ha.le hb.le 1 1
  have W' := hat_weight' ha.le hb.le 1 1 (len r)
  have e1 : response a b (.torque i) (.torque j) r = _ := (form2_unit _ i j).symm.trans (form_TT a b hne _ _)
  unfold ovl
  rw [integral_congr_ae (g := fun n => (dt (dlt i) (dlt j) - dt n (dlt i) * dt n (dlt j)) * hat a b 1 1 (dt n r)) (by
    filter_upwards [dt_self_ae] with n hn
    rw [ker_TT n hn]; rfl)]
  simp only [lwt, sub_mul]
  rw [integral_sub ((weight_int W r).const_mul _) (int2 W r _ _), integral_const_mul, zon0 W W' h0 h2,
    zon2 W W' h0 h2, mom_11_0 ha hb hr, mom_11_2 ha hb hr, e1, h2]
  field_simp
  ring

theorem ovl_FT (i j : Fin 3) : Real.pi * response a b (.force i) (.torque j) r = ovl a b (.force i) (.torque j) r := by
  obtain ⟨h0, h2, hne⟩ := len_facts ha hb hr
  have W := hat_weight ha.le hb.le 0 1
  have W' := hat_weight' ha.le hb.le 0 1 (len r)
  have e1 : ∑ k, eps i j k * r k = dt r (eps i j) := by
    simp only [dt]
    exact Finset.sum_congr rfl fun k _ => mul_comm _ _
  unfold ovl
  simp only [ker_FT, lwt, ldeg]
  rw [zon1 W W' h0 h2, mom_01_1 ha hb hr, resp_FT_closed a b hne, e1]
  field_simp

theorem ovl_FS (i j k : Fin 3) :
    Real.pi * response a b (.force i) (.stress j k) r = ovl a b (.force i) (.stress j k) r := by
  obtain ⟨h0, h2, hne⟩ := len_facts ha hb hr
  have W := hat_weight ha.le hb.le 0 1
  have W' := hat_weight' ha.le hb.le 0 1 (len r)
  have e1 : response a b (.force i) (.stress j k) r = _ := (form3_unit _ i j k).symm.trans (form_FS a b hne _ _ _)
  have i1 := fun c x => (int1 W r x).const_mul c
  unfold ovl
  simp only [ker_FS, lwt, ldeg, sub_mul, add_mul, mul_assoc (dt _ _ / 2)]
  rw [lin3 (i1 _ _) (i1 _ _) (int3 W r _ _ _), integral_const_mul,
    integral_const_mul, zon1 W W' h0 h2, zon1 W W' h0 h2, zon3 W W' h0 h2, mom_01_1 ha hb hr, mom_01_3 ha hb hr, e1]
  field_simp
  ring

theorem ovl_TS (i j k : Fin 3) :
    Real.pi * response a b (.torque i) (.stress j k) r = ovl a b (.torque i) (.stress j k) r := by
  obtain ⟨h0, h2, hne⟩ := len_facts ha hb hr
  have W := hat_weight ha.le hb.le 1 1
  have W' := hat_weight' ha.le hb.le 1 1 (len r)
  have i2 := fun c x y => (int2 W r x y).const_mul c
  have e1 : ∑ m, (eps i j m * r m * r k + eps i k m * r m * r j)
      = -(dt r (eps j i) * dt r (dlt k) + dt r (eps k i) * dt r (dlt j)) := by
    have an : ∀ p q m, eps p q m = -eps q p m := by
      intro p q m; fin_cases p <;> fin_cases q <;> fin_cases m <;> simp [eps]
    rw [dt_dlt, dt_dlt]
    simp only [dt3, Fin.sum_univ_three, an i]
    ring
  have e2 : dt (eps j i) (dlt k) = -dt (eps k i) (dlt j) := by
    rw [dt_dlt, dt_dlt]
    fin_cases i <;> fin_cases j <;> fin_cases k <;> simp [eps]
  unfold ovl
  simp only [ker_TS, lwt, ldeg, add_mul, mul_assoc (1 / 2 : ℝ)]
  rw [integral_add (i2 _ _ _) (i2 _ _ _), integral_const_mul,
    integral_const_mul, zon2 W W' h0 h2, zon2 W W' h0 h2, mom_11_0 ha hb hr, mom_11_2 ha hb hr,
    resp_TS_closed a b hne, e1, e2]
  field_simp
  ring

theorem ovl_SS (i j k l : Fin 3) :
    Real.pi * response a b (.stress i j) (.stress k l) r = ovl a b (.stress i j) (.stress k l) r := by
  obtain ⟨h0, h2, hne⟩ := len_facts ha hb hr
  have W := hat_weight ha.le hb.le 1 1
  have W' := hat_weight' ha.le hb.le 1 1 (len r)
  have e1 : response a b (.stress i j) (.stress k l) r = _ :=
    (form4_unit _ i j k l).symm.trans (form_SS a b hne _ _ _ _)
  have i2 := fun c x y => (int2 W r x y).const_mul c
  unfold ovl
  simp only [ker_SS, lwt, ldeg, sub_mul, add_mul, mul_assoc (dt _ _ / 4)]
  rw [lin5 (i2 _ _ _) (i2 _ _ _) (i2 _ _ _) (i2 _ _ _) (int4 W r _ _ _ _)]
  simp only [integral_const_mul, zon2 W W' h0 h2, zon4 W W' h0 h2, mom_11_0 ha hb hr, mom_11_2 ha hb hr,
    mom_11_4 ha hb hr]
  rw [e1]
  unfold ddForm dlForm
  simp only [dt_comm (dlt l), dt_comm (dlt k) (dlt i), dt_comm (dlt k) (dlt j), dt_comm (dlt j) (dlt i)]
  field_simp
  ring

end Match

end SD.Sph
