import Verif.Lemmas.SwirlSum
import Mathlib.Analysis.SpecialFunctions.Integrals.Basic
import Mathlib.Analysis.SpecialFunctions.Sqrt
import Mathlib.MeasureTheory.Integral.DominatedConvergence

/-!
# The torque of swirls on a sphere
-/

set_option autoImplicit false

namespace SD.Twist

open Filter Topology Spec

/-- The square of the distance between a point of the sphere and a swirl at the height `y` above the centre. -/
noncomputable def dst (y R th : ℝ) : ℝ := R ^ 2 - 2 * R * y * Real.cos th + y ^ 2

theorem dst_eq (y R th : ℝ) : dst y R th = (R - y * Real.cos th) ^ 2 + y ^ 2 * Real.sin th ^ 2 := by
  have := Real.sin_sq_add_cos_sq th
  rw [show Real.sin th ^ 2 = 1 - Real.cos th ^ 2 from by linarith]
  unfold dst; ring

theorem dst_ge {y R : ℝ} (hR : 0 ≤ R) (th : ℝ) : (R - |y|) ^ 2 ≤ dst y R th := by
  have h1 : y * Real.cos th ≤ |y| := by
    refine (le_abs_self _).trans ?_
    rw [abs_mul]
    exact mul_le_of_le_one_right (abs_nonneg y) (Real.abs_cos_le_one th)
  unfold dst
  nlinarith [sq_abs y]

/-- What has to be integrated over the sphere. -/
noncomputable def integrand (y R th : ℝ) : ℝ := Real.sin th ^ 3 * (R - y * Real.cos th) / √(dst y R th) ^ 5

noncomputable def primitive (y R m : ℝ) : ℝ :=
  ((R ^ 2 - y ^ 2) ^ 3 / 3 * (m ^ 3)⁻¹ - (2 * (R ^ 2 + y ^ 2) * (R ^ 2 - y ^ 2) - (R ^ 2 - y ^ 2) ^ 2) * m⁻¹
    + (2 * (R ^ 2 + y ^ 2) - (R ^ 2 - y ^ 2)) * m - m ^ 3 / 3) / (8 * R ^ 4 * y ^ 3)

theorem primitive_deriv {y R m : ℝ} (hm : m ≠ 0) : HasDerivAt (primitive y R)
    ((-(R ^ 2 - y ^ 2) ^ 2 + 2 * (R ^ 2 + y ^ 2) * m ^ 2 - m ^ 4) * (R ^ 2 - y ^ 2 + m ^ 2) / m ^ 4 / (8 * R ^ 4 * y ^ 3)) m := by
  unfold primitive
  have h3 : HasDerivAt (fun m : ℝ => (m ^ 3)⁻¹) (-(3 * m ^ 2) / (m ^ 3) ^ 2) m := by
    exact ((hasDerivAt_pow 3 m).inv (pow_ne_zero 3 hm)).congr_deriv (by push_cast; ring)
  have h1 : HasDerivAt (fun m : ℝ => m⁻¹) (-(m ^ 2)⁻¹) m := hasDerivAt_inv hm
  have h := ((((h3.const_mul ((R ^ 2 - y ^ 2) ^ 3 / 3)).sub
    (h1.const_mul (2 * (R ^ 2 + y ^ 2) * (R ^ 2 - y ^ 2) - (R ^ 2 - y ^ 2) ^ 2))).add
    ((hasDerivAt_id m).const_mul (2 * (R ^ 2 + y ^ 2) - (R ^ 2 - y ^ 2)))).sub ((hasDerivAt_pow 3 m).div_const 3)).div_const
    (8 * R ^ 4 * y ^ 3)
  refine h.congr_deriv ?_
  congr 1
  push_cast
  field_simp
  ring

theorem integrand_prim {y R th : ℝ} (hy : y ≠ 0) (hR : 0 < R) (hne : R ≠ |y|) :
    HasDerivAt (fun th => primitive y R √(dst y R th)) (integrand y R th) th := by
  have hN : 0 < dst y R th := lt_of_lt_of_le (by have := sub_ne_zero.2 hne; positivity) (dst_ge hR.le th)
  have hm : 0 < √(dst y R th) := Real.sqrt_pos.2 hN
  have hd : HasDerivAt (dst y R) (2 * R * y * Real.sin th) th := by
    unfold dst
    refine ((((Real.hasDerivAt_cos th).const_mul (2 * R * y)).const_sub (R ^ 2)).add_const (y ^ 2)).congr_deriv ?_
    ring
  have h := (primitive_deriv (y := y) (R := R) hm.ne').comp th (hd.sqrt hN.ne')
  refine h.congr_deriv ?_
  unfold integrand
  have hm2 : √(dst y R th) ^ 2 = R ^ 2 - 2 * R * y * Real.cos th + y ^ 2 := Real.sq_sqrt hN.le
  generalize √(dst y R th) = m at *
  have e1 : -(R ^ 2 - y ^ 2) ^ 2 + 2 * (R ^ 2 + y ^ 2) * m ^ 2 - m ^ 4 = 4 * R ^ 2 * y ^ 2 * Real.sin th ^ 2 := by
    rw [show m ^ 4 = (m ^ 2) ^ 2 from by ring, hm2, Real.sin_sq]; ring
  have e2 : R ^ 2 - y ^ 2 + m ^ 2 = 2 * R * (R - y * Real.cos th) := by rw [hm2]; ring
  rw [e1, e2]
  field_simp
  ring

theorem integrand_cont {y R : ℝ} (hR : 0 < R) (hne : R ≠ |y|) : Continuous (integrand y R) := by
  have hN : ∀ th, 0 < dst y R th := fun th =>
    lt_of_lt_of_le (by have := sub_ne_zero.2 hne; positivity) (dst_ge hR.le th)
  unfold integrand
  refine Continuous.div (by fun_prop) (by unfold dst; fun_prop) fun th => ?_
  exact pow_ne_zero _ (Real.sqrt_pos.2 (hN th)).ne'

theorem integrand_integral {y R : ℝ} (hR : 0 < R) (hne : R ≠ |y|) :
    ∫ th in (0)..Real.pi, integrand y R th = if |y| < R then 4 / (3 * R ^ 4) else 0 := by
  by_cases hy : y = 0
  · subst hy
    rw [if_pos (by simpa using hR)]
    have e : ∀ th, integrand 0 R th = 1 / R ^ 4 * Real.sin th ^ 3 := fun th => by
      unfold integrand dst
      rw [show R ^ 2 - 2 * R * 0 * Real.cos th + 0 ^ 2 = R ^ 2 from by ring, Real.sqrt_sq hR.le]
      field_simp
      ring
    simp only [e]
    rw [intervalIntegral.integral_const_mul, integral_sin_pow_three]
    simp
    field_simp
    norm_num
  · rw [intervalIntegral.integral_eq_sub_of_hasDerivAt (f := fun th => primitive y R √(dst y R th))
      (fun th _ => integrand_prim hy hR hne) ((integrand_cont hR hne).intervalIntegrable _ _)]
    have e1 : dst y R Real.pi = (R + y) ^ 2 := by unfold dst; rw [Real.cos_pi]; ring
    have e0 : dst y R 0 = (R - y) ^ 2 := by unfold dst; rw [Real.cos_zero]; ring
    rw [e1, e0, Real.sqrt_sq_eq_abs, Real.sqrt_sq_eq_abs]
    have n1 : R + y ≠ 0 := fun h => hne (by rw [show y = -R from by linarith, abs_neg, abs_of_pos hR])
    have n2 : R - y ≠ 0 := fun h => hne (by rw [show y = R from by linarith, abs_of_pos hR])
    split_ifs with h
    · obtain ⟨h1, h2⟩ := abs_lt.1 h
      rw [abs_of_pos (by linarith), abs_of_pos (by linarith)]
      unfold primitive
      field_simp
      ring
    · have h' : R < |y| := lt_of_le_of_ne (not_lt.1 h) hne
      rcases lt_abs.1 h' with h1 | h1
      · rw [abs_of_pos (by linarith), abs_of_neg (by linarith)]
        unfold primitive
        have : -(R - y) ≠ 0 := neg_ne_zero.2 n2
        field_simp
        ring
      · rw [abs_of_neg (by linarith), abs_of_pos (by linarith)]
        unfold primitive
        have : -(R + y) ≠ 0 := neg_ne_zero.2 n1
        field_simp
        ring

theorem dst_pos {y R : ℝ} (hR : 0 < R) (hne : R ≠ |y|) (th : ℝ) : 0 < dst y R th :=
  lt_of_lt_of_le (by have := sub_ne_zero.2 hne; positivity) (dst_ge hR.le th)

/-- The velocity of a swirl over the radius. -/
theorem swirl_radial {s z c t th : ℝ} (ht : t ≠ 0) : swirlFlow s z (t * Real.sin th) 0 (c + t * Real.cos th) 1 / t
    = s * Real.sin th * dst (z - c) t th ^ (-3 / 2 : ℝ) := by
  have e : (t * Real.sin th) ^ 2 + 0 ^ 2 + (c + t * Real.cos th - z) ^ 2 = dst (z - c) t th := by
    have := Real.sin_sq_add_cos_sq th
    unfold dst
    rw [mul_pow, show Real.sin th ^ 2 = 1 - Real.cos th ^ 2 from by linarith]
    ring
  simp only [swirlFlow, whirl_pw, Matrix.cons_val_one, Matrix.cons_val_zero, e]
  field_simp

theorem half_power {N : ℝ} (hN : 0 < N) : N ^ (-3 / 2 - 1 : ℝ) = 1 / √N ^ 5 := by
  rw [show (-3 / 2 - 1 : ℝ) = -((1 / 2) * ((5 : ℕ) : ℝ)) from by norm_num, Real.rpow_neg hN.le, Real.rpow_mul hN.le,
    ← Real.sqrt_eq_rpow, Real.rpow_natCast, one_div]

theorem radial_deriv (s : ℝ) {y R : ℝ} (th : ℝ) (hN : 0 < dst y R th) :
    HasDerivAt (fun t => s * Real.sin th * dst y t th ^ (-3 / 2 : ℝ))
      (s * (-3 * (Real.sin th * (R - y * Real.cos th) / √(dst y R th) ^ 5))) R := by
  have hd : HasDerivAt (fun t => dst y t th) (2 * R - 2 * y * Real.cos th) R := by
    unfold dst
    refine (((hasDerivAt_pow 2 R).sub (((hasDerivAt_id R).const_mul 2).mul_const (y * Real.cos th))).add_const
      (y ^ 2)).congr_deriv ?_ |>.congr_of_eventuallyEq (Eventually.of_forall fun t => ?_)
    · push_cast; ring
    · simp only [Pi.sub_apply, id]; ring
  refine ((hd.rpow_const (p := (-3 / 2 : ℝ)) (Or.inl hN.ne')).const_mul (s * Real.sin th)).congr_deriv ?_
  rw [half_power hN]
  ring

theorem radial_bound (s : ℝ) {y R d : ℝ} (th : ℝ) (hd : 0 < d) (h : d ^ 2 ≤ dst y R th) :
    |s * (-3 * (Real.sin th * (R - y * Real.cos th) / √(dst y R th) ^ 5))| ≤ |s| * (3 / d ^ 4) := by
  have hN : 0 < dst y R th := lt_of_lt_of_le (by positivity) h
  have hm : 0 < √(dst y R th) := Real.sqrt_pos.2 hN
  have hdm : d ≤ √(dst y R th) := Real.le_sqrt_of_sq_le h
  have h1 : |R - y * Real.cos th| ≤ √(dst y R th) := Real.abs_le_sqrt (by rw [dst_eq]; nlinarith [sq_nonneg (y * Real.sin th)])
  refine abs_mul_le ?_
  rw [abs_mul, abs_div, abs_mul, abs_of_pos (pow_pos hm 5), abs_neg, abs_of_pos (by norm_num : (0 : ℝ) < 3)]
  have h2 : |Real.sin th| * |R - y * Real.cos th| ≤ √(dst y R th) := by
    calc _ ≤ 1 * √(dst y R th) := mul_le_mul (Real.abs_sin_le_one th) h1 (abs_nonneg _) zero_le_one
      _ = _ := one_mul _
  have h3 : |Real.sin th| * |R - y * Real.cos th| / √(dst y R th) ^ 5 ≤ 1 / d ^ 4 := by
    calc _ ≤ √(dst y R th) / √(dst y R th) ^ 5 := by gcongr
      _ = 1 / √(dst y R th) ^ 4 := by field_simp
      _ ≤ _ := by gcongr
  calc _ ≤ 3 * (1 / d ^ 4) := by gcongr
    _ = _ := by ring

theorem swirl_stress (s : ℝ) {z c R : ℝ} (hR : 0 < R) (hne : R ≠ |z - c|) (th : ℝ) :
    deriv (fun t => swirlFlow s z (t * Real.sin th) 0 (c + t * Real.cos th) 1 / t) R
      = s * (-3 * (Real.sin th * (R - (z - c) * Real.cos th) / √(dst (z - c) R th) ^ 5)) := by
  have e : (fun t => swirlFlow s z (t * Real.sin th) 0 (c + t * Real.cos th) 1 / t)
      =ᶠ[𝓝 R] fun t => s * Real.sin th * dst (z - c) t th ^ (-3 / 2 : ℝ) :=
    (lt_mem_nhds hR).mono fun t ht => swirl_radial (by exact ne_of_gt ht)
  rw [e.deriv_eq]
  exact (radial_deriv s th (dst_pos hR hne th)).deriv

theorem swirl_torque (mu s : ℝ) {z c R : ℝ} (hR : 0 < R) (hne : R ≠ |z - c|) :
    fluidTorque mu (swirlFlow s z) c R = if |z - c| < R then -(8 * Real.pi * mu * s) else 0 := by
  unfold fluidTorque
  simp only [swirl_stress s hR hne]
  have e : ∀ th, mu * R * (s * (-3 * (Real.sin th * (R - (z - c) * Real.cos th) / √(dst (z - c) R th) ^ 5)))
      * (R * Real.sin th) * (2 * Real.pi * R ^ 2 * Real.sin th) = -6 * Real.pi * mu * s * R ^ 4 * integrand (z - c) R th := fun th => by
    unfold integrand; ring
  simp only [e]
  rw [intervalIntegral.integral_const_mul, integrand_integral hR hne]
  split_ifs
  · field_simp; norm_num; ring
  · ring

/-- The torques of a series of swirls add up. -/
theorem sum_torque {ι : Type} [Countable ι] {s z : ι → ℝ} (mu : ℝ) {c R d : ℝ} (hs : Summable fun n => |s n|) (hR : 0 < R)
    (hd : 0 < d) (hdR : d ≤ R) (h : ∀ n, d ≤ abs (R - |z n - c|)) :
    fluidTorque mu (fun x y w i => ∑' n, swirlFlow (s n) (z n) x y w i) c R
      = ∑' n, fluidTorque mu (swirlFlow (s n) (z n)) c R := by
  have hne : ∀ n, R ≠ |z n - c| := fun n e => by
    have := h n
    rw [← e, sub_self, abs_zero] at this
    linarith
  have near : ∀ n th, ∀ t ∈ Metric.ball R (d / 2), (d / 2) ^ 2 ≤ dst (z n - c) t th ∧ 0 < t := fun n th t ht => by
    rw [Metric.mem_ball, Real.dist_eq] at ht
    have ht' := abs_lt.1 ht
    have ht0 : 0 < t := by linarith
    refine ⟨le_trans ?_ (dst_ge ht0.le th), ht0⟩
    rw [← sq_abs (t - |z n - c|)]
    refine pow_le_pow_left₀ (by positivity) ?_ 2
    have h1 := h n
    have h2 := abs_sub_abs_le_abs_sub (R - |z n - c|) (R - t)
    rw [show R - |z n - c| - (R - t) = t - |z n - c| from by ring, abs_sub_comm R t] at h2
    linarith
  have key : ∀ th, HasDerivAt (fun t => ∑' n, s n * Real.sin th * dst (z n - c) t th ^ (-3 / 2 : ℝ))
      (∑' n, s n * (-3 * (Real.sin th * (R - (z n - c) * Real.cos th) / √(dst (z n - c) R th) ^ 5))) R := fun th => by
    have h0 : R ∈ Metric.ball R (d / 2) := Metric.mem_ball_self (by positivity)
    refine hasDerivAt_tsum_of_isPreconnected (hs.mul_right (3 / (d / 2) ^ 4)) Metric.isOpen_ball
      (convex_ball R (d / 2)).isPreconnected
      (g' := fun n t => s n * (-3 * (Real.sin th * (t - (z n - c) * Real.cos th) / √(dst (z n - c) t th) ^ 5)))
      (fun n t ht => radial_deriv (s n) th (lt_of_lt_of_le (by positivity) (near n th t ht).1))
      (fun n t ht => radial_bound (s n) th (by positivity) (near n th t ht).1) h0 ?_ h0
    refine .of_norm_bounded (hs.mul_right (((d / 2) ^ 2) ^ (-3 / 2 : ℝ))) fun n => ?_
    rw [Real.norm_eq_abs, mul_assoc]
    refine abs_mul_le ?_
    have h1 := near n th R h0
    have hp : 0 < (d / 2) ^ 2 := by positivity
    rw [abs_mul, abs_of_nonneg (Real.rpow_nonneg (hp.le.trans h1.1) _)]
    calc _ ≤ 1 * ((d / 2) ^ 2) ^ (-3 / 2 : ℝ) := mul_le_mul (Real.abs_sin_le_one th)
          (Real.rpow_le_rpow_of_nonpos hp h1.1 (by norm_num)) (Real.rpow_nonneg (hp.le.trans h1.1) _) zero_le_one
      _ = _ := one_mul _
  have stress : ∀ th, deriv (fun t => (∑' n, swirlFlow (s n) (z n) (t * Real.sin th) 0 (c + t * Real.cos th) 1) / t) R
      = ∑' n, s n * (-3 * (Real.sin th * (R - (z n - c) * Real.cos th) / √(dst (z n - c) R th) ^ 5)) := fun th => by
    have e : (fun t => (∑' n, swirlFlow (s n) (z n) (t * Real.sin th) 0 (c + t * Real.cos th) 1) / t)
        =ᶠ[𝓝 R] fun t => ∑' n, s n * Real.sin th * dst (z n - c) t th ^ (-3 / 2 : ℝ) :=
      (lt_mem_nhds hR).mono fun t ht => by
        beta_reduce
        rw [← tsum_div_const]
        exact tsum_congr fun n => swirl_radial (by exact ne_of_gt ht)
    rw [e.deriv_eq]
    exact (key th).deriv
  have sm : ∀ th, Summable fun n => s n * (-3 * (Real.sin th * (R - (z n - c) * Real.cos th) / √(dst (z n - c) R th) ^ 5)) :=
    fun th => .of_norm_bounded (hs.mul_right (3 / (d / 2) ^ 4)) fun n =>
      radial_bound (s n) th (by positivity) (near n th R (Metric.mem_ball_self (by positivity))).1
  refine (HasSum.tsum_eq ?_).symm
  unfold fluidTorque
  simp only [stress, swirl_stress _ hR (hne _)]
  refine intervalIntegral.hasSum_integral_of_dominated_convergence
    (fun n _ => |s n| * (3 / (d / 2) ^ 4) * (|mu * R| * (R * (2 * Real.pi * R ^ 2)))) (fun n => ?_) (fun n => ?_) ?_ ?_ ?_
  · refine Continuous.aestronglyMeasurable ?_
    have hpos : ∀ th, √(dst (z n - c) R th) ^ 5 ≠ 0 := fun th => pow_ne_zero _ (Real.sqrt_pos.2 (dst_pos hR (hne n) th)).ne'
    have : Continuous fun th => Real.sin th * (R - (z n - c) * Real.cos th) / √(dst (z n - c) R th) ^ 5 :=
      Continuous.div (by fun_prop) (by unfold dst; fun_prop) hpos
    fun_prop
  · refine Eventually.of_forall fun th _ => ?_
    have h1 := radial_bound (s n) th (by positivity : 0 < d / 2) (near n th R (Metric.mem_ball_self (by positivity))).1
    rw [Real.norm_eq_abs, abs_mul, abs_mul, abs_mul, mul_comm |mu * R|, mul_assoc, mul_assoc]
    have h2 : |R * Real.sin th| ≤ R := by
      rw [abs_mul, abs_of_pos hR]; exact mul_le_of_le_one_right hR.le (Real.abs_sin_le_one th)
    have h3 : |2 * Real.pi * R ^ 2 * Real.sin th| ≤ 2 * Real.pi * R ^ 2 := by
      have : 0 < 2 * Real.pi * R ^ 2 := by positivity
      rw [abs_mul, abs_of_pos this]; exact mul_le_of_le_one_right this.le (Real.abs_sin_le_one th)
    gcongr
  · exact Eventually.of_forall fun th _ => (hs.mul_right _).mul_right _
  · exact intervalIntegrable_const
  · refine Eventually.of_forall fun th _ => ?_
    exact (((sm th).hasSum.mul_left (mu * R)).mul_right (R * Real.sin th)).mul_right _

end SD.Twist
