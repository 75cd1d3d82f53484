import Verif.Spec.Lubrication
import Mathlib.Analysis.SpecialFunctions.Log.NegMulLog
import Mathlib.Tactic.LinearCombination

/-!
Functions of the form `p / xi + q log (1 / xi) + c + s xi log (1 / xi)`.
-/

set_option autoImplicit false

namespace SD.Lub

open Spec Filter Topology

/-- The form of all near-field functions. -/
noncomputable def lub (p q c s xi : ℝ) : ℝ :=
  p * xi⁻¹ + q * Real.log xi⁻¹ + c + s * xi * Real.log xi⁻¹

theorem xlog : Tendsto (fun xi : ℝ => xi * Real.log xi⁻¹) (𝓝[>] 0) (𝓝 0) := by
  have h : Tendsto (fun xi : ℝ => xi * Real.log xi) (𝓝[>] 0) (𝓝 (0 * Real.log 0)) :=
    (Real.continuous_mul_log.tendsto 0).mono_left nhdsWithin_le_nhds
  have h' := h.neg
  simp only [zero_mul, neg_zero] at h'
  refine h'.congr fun xi => ?_
  rw [Real.log_inv]; ring

theorem x0 : Tendsto (fun xi : ℝ => xi) (𝓝[>] 0) (𝓝 0) := tendsto_id.mono_left nhdsWithin_le_nhds

theorem log_top : Tendsto (fun xi : ℝ => Real.log xi⁻¹) (𝓝[>] 0) atTop :=
  Real.tendsto_log_atTop.comp tendsto_inv_nhdsGT_zero

/-- The leading term. -/
theorem lub_mul (p q c s : ℝ) : Tendsto (fun xi => xi * lub p q c s xi) (𝓝[>] 0) (𝓝 p) := by
  have h := (((tendsto_const_nhds (x := p)).add (xlog.const_mul q)).add (x0.const_mul c)).add
    ((x0.mul xlog).const_mul s)
  simp only [mul_zero, add_zero] at h
  refine h.congr' ?_
  filter_upwards [self_mem_nhdsWithin] with xi hx
  have hx : xi ≠ 0 := ne_of_gt hx
  unfold lub
  field_simp

/-- The logarithmic term. -/
theorem lub_div (q c s : ℝ) :
    Tendsto (fun xi => lub 0 q c s xi / Real.log (1 / xi)) (𝓝[>] 0) (𝓝 q) := by
  have h := ((tendsto_const_nhds (x := q)).add ((tendsto_const_nhds (x := c)).div_atTop log_top)).add
    (x0.const_mul s)
  simp only [mul_zero, add_zero] at h
  refine h.congr' ?_
  filter_upwards [log_top.eventually_gt_atTop 0] with xi hx
  unfold lub
  rw [one_div]
  generalize Real.log xi⁻¹ = L at hx ⊢
  have hx : L ≠ 0 := hx.ne'
  field_simp
  ring

theorem smooth_settles {f : ℝ → ℝ} (h : SettlesSmoothly f) : Settles f := by
  obtain ⟨L, -, h, -⟩ := h
  exact ⟨L, h⟩

theorem settles_add {f g : ℝ → ℝ} (hf : Settles f) (hg : Settles g) : Settles fun x => f x + g x := by
  obtain ⟨L, hf⟩ := hf
  obtain ⟨M, hg⟩ := hg
  exact ⟨_, hf.add hg⟩

theorem settles_mul {f : ℝ → ℝ} (k : ℝ) (hf : Settles f) : Settles fun x => k * f x := by
  obtain ⟨L, hf⟩ := hf
  exact ⟨_, hf.const_mul k⟩

theorem smooth_add {f g : ℝ → ℝ} (hf : SettlesSmoothly f) (hg : SettlesSmoothly g) :
    SettlesSmoothly fun x => f x + g x := by
  obtain ⟨L, K, hf, hf'⟩ := hf
  obtain ⟨M, N, hg, hg'⟩ := hg
  refine ⟨_, _, hf.add hg, (hf'.add hg').congr fun x => ?_⟩
  ring

theorem smooth_mul {f : ℝ → ℝ} (k : ℝ) (hf : SettlesSmoothly f) : SettlesSmoothly fun x => k * f x := by
  obtain ⟨L, K, hf, hf'⟩ := hf
  refine ⟨_, _, hf.const_mul k, (hf'.const_mul k).congr fun x => ?_⟩
  ring

/-- Three functions, the first times the distance. -/
noncomputable def mix (k m n p1 q1 c1 s1 p2 q2 c2 s2 p3 q3 c3 s3 xi : ℝ) : ℝ :=
  k * lub p1 q1 c1 s1 xi * (1 + xi / 2) + m * lub p2 q2 c2 s2 xi + n * lub p3 q3 c3 s3 xi

section
variable {k m n p1 q1 c1 s1 p2 q2 c2 s2 p3 q3 c3 s3 : ℝ}

theorem mix_expand (hp : k * p1 + m * p2 + n * p3 = 0) (hq : k * q1 + m * q2 + n * q3 = 0) {xi : ℝ} (hx : xi ≠ 0) :
    mix k m n p1 q1 c1 s1 p2 q2 c2 s2 p3 q3 c3 s3 xi
      = (k * (c1 + p1 / 2) + m * c2 + n * c3) + k * c1 / 2 * xi
        + (k * (s1 + q1 / 2) + m * s2 + n * s3) * (xi * Real.log xi⁻¹)
        + k * s1 / 2 * (xi * (xi * Real.log xi⁻¹)) := by
  unfold mix lub
  generalize Real.log xi⁻¹ = L
  have e : xi⁻¹ * xi = 1 := inv_mul_cancel₀ hx
  linear_combination xi⁻¹ * hp + L * hq + k * p1 / 2 * e

theorem mix_limit (hp : k * p1 + m * p2 + n * p3 = 0) (hq : k * q1 + m * q2 + n * q3 = 0) :
    Tendsto (mix k m n p1 q1 c1 s1 p2 q2 c2 s2 p3 q3 c3 s3) (𝓝[>] 0)
      (𝓝 (k * (c1 + p1 / 2) + m * c2 + n * c3)) := by
  have h := (((tendsto_const_nhds (x := k * (c1 + p1 / 2) + m * c2 + n * c3)).add
    (x0.const_mul (k * c1 / 2))).add (xlog.const_mul (k * (s1 + q1 / 2) + m * s2 + n * s3))).add
      ((x0.mul xlog).const_mul (k * s1 / 2))
  simp only [mul_zero, add_zero] at h
  refine h.congr' ?_
  filter_upwards [self_mem_nhdsWithin] with xi hx
  exact (mix_expand hp hq (ne_of_gt hx)).symm

theorem mix_settles (hp : k * p1 + m * p2 + n * p3 = 0) (hq : k * q1 + m * q2 + n * q3 = 0) :
    Settles (mix k m n p1 q1 c1 s1 p2 q2 c2 s2 p3 q3 c3 s3) := ⟨_, mix_limit hp hq⟩

theorem mix_smooth (hp : k * p1 + m * p2 + n * p3 = 0) (hq : k * q1 + m * q2 + n * q3 = 0)
    (hs : k * (s1 + q1 / 2) + m * s2 + n * s3 = 0) :
    SettlesSmoothly (mix k m n p1 q1 c1 s1 p2 q2 c2 s2 p3 q3 c3 s3) := by
  refine ⟨_, k * c1 / 2, mix_limit hp hq, ?_⟩
  have h := (tendsto_const_nhds (x := k * c1 / 2)).add (xlog.const_mul (k * s1 / 2))
  simp only [mul_zero, add_zero] at h
  refine h.congr' ?_
  filter_upwards [self_mem_nhdsWithin] with xi hx
  have hx : xi ≠ 0 := ne_of_gt hx
  rw [mix_expand hp hq hx, hs]
  field_simp
  ring

/-- With a logarithm left over, the slope is infinite. -/
theorem mix_rough (hp : k * p1 + m * p2 + n * p3 = 0) (hq : k * q1 + m * q2 + n * q3 = 0)
    (hs : 0 < k * (s1 + q1 / 2) + m * s2 + n * s3) :
    Tendsto (fun xi => (mix k m n p1 q1 c1 s1 p2 q2 c2 s2 p3 q3 c3 s3 xi
      - (k * (c1 + p1 / 2) + m * c2 + n * c3)) / xi) (𝓝[>] 0) atTop := by
  have h := (tendsto_const_nhds (x := k * c1 / 2)).add (xlog.const_mul (k * s1 / 2))
  have h2 := h.add_atTop (log_top.const_mul_atTop hs)
  refine h2.congr' ?_
  filter_upwards [self_mem_nhdsWithin] with xi hx
  have hx : xi ≠ 0 := ne_of_gt hx
  rw [mix_expand hp hq hx]
  field_simp
  ring

end

end SD.Lub
