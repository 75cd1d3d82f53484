import Mathlib.MeasureTheory.Constructions.HaarToSphere
import Mathlib.MeasureTheory.Integral.Pi
import Mathlib.MeasureTheory.Integral.Gamma
import Mathlib.MeasureTheory.Measure.Haar.InnerProductSpace
import Mathlib.MeasureTheory.Measure.HasOuterApproxClosed
import Mathlib.Topology.ContinuousMap.Weierstrass
import Mathlib.Analysis.SpecialFunctions.Gaussian.GaussianIntegral
import Verif.Lemmas.Isotropy

/-!
# The uniform measure on the directions of space

It does not change under rotations and reflections, and the component along an axis is spread evenly over `[-1, 1]`.
-/

set_option autoImplicit false

namespace SD.Sph

open Spec MeasureTheory Set Metric
open scoped Pointwise

abbrev E := EuclideanSpace ℝ (Fin 3)

/-- The surface measure of the unit sphere, as a measure on triples of coordinates. -/
noncomputable def sph : Measure (Fin 3 → ℝ) :=
  (volume : Measure E).toSphere.map fun n : sphere (0 : E) 1 => (n : E).ofLp

theorem measurable_coord : Measurable fun n : sphere (0 : E) 1 => (n : E).ofLp :=
  (PiLp.volume_preserving_ofLp (Fin 3)).measurable.comp measurable_subtype_coe

instance : IsFiniteMeasure sph := by unfold sph; infer_instance

theorem norm_sq (x : E) : ‖x‖ ^ 2 = ∑ i, x.ofLp i ^ 2 := by
  rw [EuclideanSpace.norm_sq_eq]
  simp

theorem sph_unit : ∀ᵐ n ∂sph, ∑ i, n i ^ 2 = 1 := by
  unfold sph
  rw [ae_map_iff measurable_coord.aemeasurable (measurableSet_eq_fun (by fun_prop) (by fun_prop))]
  refine Filter.Eventually.of_forall fun n => ?_
  rw [← norm_sq]
  simp

/-- Polar coordinates for a homogeneous function times a Gaussian. -/
theorem polar {G : (Fin 3 → ℝ) → ℝ} {m : ℕ} (hm : Measurable G) (hG : ∀ r : ℝ, 0 < r → ∀ x, G (fun i => r * x i) = r ^ m * G x) :
    ∫ x : Fin 3 → ℝ, G x * Real.exp (-∑ i, x i ^ 2)
      = (∫ n, G n ∂sph) * ∫ r in Ioi (0 : ℝ), r ^ (m + 2) * Real.exp (-r ^ 2) := by
  have h1 : ∫ x : Fin 3 → ℝ, G x * Real.exp (-∑ i, x i ^ 2)
      = ∫ x : E, G x.ofLp * Real.exp (-‖x‖ ^ 2) := by
    rw [← (PiLp.volume_preserving_ofLp (Fin 3)).integral_comp
      (MeasurableEquiv.toLp 2 (Fin 3 → ℝ)).symm.measurableEmbedding]
    refine integral_congr_ae (Filter.Eventually.of_forall fun x => ?_)
    simp only
    rw [norm_sq]
  have h2 : ∫ x : E, G x.ofLp * Real.exp (-‖x‖ ^ 2)
      = ∫ x : ({(0)}ᶜ : Set E), G (x : E).ofLp * Real.exp (-‖(x : E)‖ ^ 2) ∂((volume : Measure E).comap (↑)) := by
    rw [integral_subtype_comap (measurableSet_singleton _).compl fun x : E => G x.ofLp * Real.exp (-‖x‖ ^ 2),
      restrict_compl_singleton]
  have h3 : ∫ x : ({(0)}ᶜ : Set E), G (x : E).ofLp * Real.exp (-‖(x : E)‖ ^ 2) ∂((volume : Measure E).comap (↑))
      = ∫ p, G (p.1 : E).ofLp * ((p.2 : ℝ) ^ m * Real.exp (-(p.2 : ℝ) ^ 2))
        ∂((volume : Measure E).toSphere.prod (.volumeIoiPow (Module.finrank ℝ E - 1))) := by
    rw [← ((volume : Measure E).measurePreserving_homeomorphUnitSphereProd).integral_comp
      (Homeomorph.measurableEmbedding _)]
    refine integral_congr_ae (Filter.Eventually.of_forall fun x => ?_)
    have hx : 0 < ‖(x : E)‖ := norm_pos_iff.mpr x.2
    simp only [homeomorphUnitSphereProd_apply_snd_coe, homeomorphUnitSphereProd_apply_fst_coe]
    have := hG ‖(x : E)‖ hx (fun i => ‖(x : E)‖⁻¹ * (x : E).ofLp i)
    have e : (fun i => ‖(x : E)‖ * (‖(x : E)‖⁻¹ * (x : E).ofLp i)) = (x : E).ofLp := by
      funext i; field_simp
    rw [e] at this
    rw [this]
    have e2 : (‖(x : E)‖⁻¹ • (x : E)).ofLp = fun i => ‖(x : E)‖⁻¹ * (x : E).ofLp i := by
      funext i; simp
    rw [e2]
    ring
  rw [h1, h2, h3, integral_prod_mul (fun n : sphere (0 : E) 1 => G (n : E).ofLp)
    (fun r : Ioi (0 : ℝ) => (r : ℝ) ^ m * Real.exp (-(r : ℝ) ^ 2))]
  congr 1
  · unfold sph
    rw [integral_map measurable_coord.aemeasurable hm.aestronglyMeasurable]
  · simp only [Measure.volumeIoiPow, ENNReal.ofReal]
    rw [integral_withDensity_eq_integral_smul,
      integral_subtype_comap measurableSet_Ioi fun a : ℝ => Real.toNNReal (a ^ (Module.finrank ℝ E - 1)) •
        (a ^ m * Real.exp (-a ^ 2))]
    · refine setIntegral_congr_fun measurableSet_Ioi fun x hx => ?_
      have hf : Module.finrank ℝ E = 3 := by simp [E]
      simp only [hf]
      rw [NNReal.smul_def, Real.coe_toNNReal _ (pow_nonneg hx.out.le _), smul_eq_mul]
      ring
    · exact (measurable_subtype_coe.pow_const _).real_toNNReal

/-! ## Rotations -/

/-- An orthogonal matrix as an isometry. -/
theorem exists_isometry {Q : Fin 3 → Fin 3 → ℝ} (hQ : Orthogonal Q) :
    ∃ L : E ≃ₗᵢ[ℝ] E, ∀ x : E, (L x).ofLp = turnVec Q x.ofLp := by
  let f : E →ₗ[ℝ] E :=
    { toFun := fun x => WithLp.toLp 2 (turnVec Q x.ofLp)
      map_add' := fun x y => by
        ext i; simp [turnVec, mul_add, Finset.sum_add_distrib]
      map_smul' := fun c x => by
        ext i; simp [turnVec, Finset.mul_sum, mul_left_comm] }
  have hn : ∀ x : E, ‖f x‖ = ‖x‖ := by
    intro x
    have : ‖f x‖ ^ 2 = ‖x‖ ^ 2 := by
      rw [norm_sq, norm_sq]
      show ∑ i, turnVec Q x.ofLp i ^ 2 = _
      simp only [pow_two]
      exact dot_turn hQ _ _
    exact (pow_left_inj₀ (norm_nonneg _) (norm_nonneg _) two_ne_zero).mp this
  exact ⟨LinearIsometry.toLinearIsometryEquiv ⟨f, hn⟩ rfl, fun x => rfl⟩

theorem measurable_turn (Q : Fin 3 → Fin 3 → ℝ) : Measurable (turnVec Q) :=
  measurable_pi_lambda _ fun i => by unfold turnVec; fun_prop

/-- The measure does not change under rotations and reflections. -/
theorem sph_turn {Q : Fin 3 → Fin 3 → ℝ} (hQ : Orthogonal Q) : sph.map (turnVec Q) = sph := by
  obtain ⟨L, hL⟩ := exists_isometry hQ
  let g : sphere (0 : E) 1 → sphere (0 : E) 1 := fun n => ⟨L n, by
    rw [mem_sphere_zero_iff_norm, L.norm_map]; simp⟩
  have hg : Measurable g := (L.continuous.comp continuous_subtype_val).measurable.subtype_mk
  have key : (volume : Measure E).toSphere.map g = (volume : Measure E).toSphere := by
    ext s hs
    rw [Measure.map_apply hg hs, Measure.toSphere_apply' _ (hg hs), Measure.toSphere_apply' _ hs]
    congr 1
    have e : Ioo (0 : ℝ) 1 • ((↑) '' (g ⁻¹' s) : Set E) = L ⁻¹' (Ioo (0 : ℝ) 1 • ((↑) '' s : Set E)) := by
      ext x
      simp only [Set.mem_smul, Set.mem_image, Set.mem_preimage]
      constructor
      · rintro ⟨r, hr, y, ⟨n, hn, rfl⟩, rfl⟩
        exact ⟨r, hr, _, ⟨g n, hn, rfl⟩, by simp [g]⟩
      · rintro ⟨r, hr, y, ⟨n, hn, rfl⟩, h⟩
        refine ⟨r, hr, L.symm n, ⟨⟨L.symm n, by
          rw [mem_sphere_zero_iff_norm, L.symm.norm_map]; simp⟩, ?_, rfl⟩, ?_⟩
        · have : g ⟨L.symm n, by rw [mem_sphere_zero_iff_norm, L.symm.norm_map]; simp⟩ = n := by
            apply Subtype.ext; simp [g]
          rw [this]; exact hn
        · apply L.injective
          rw [← h]; simp
    rw [e]
    exact L.measurePreserving.measure_preimage_equiv (f := L.toMeasurableEquiv) _
  unfold sph
  rw [Measure.map_map (measurable_turn Q) measurable_coord]
  conv_rhs => rw [← key, Measure.map_map measurable_coord hg]
  congr 1
  funext n
  exact (hL n).symm

/-! ## The component along an axis -/

theorem gauss_half (m : ℕ) : ∫ r in Ioi (0 : ℝ), r ^ m * Real.exp (-r ^ 2) = 1 / 2 * Real.Gamma ((m + 1) / 2) := by
  have := integral_rpow_mul_exp_neg_rpow (p := 2) (q := m) two_pos (by have : (0 : ℝ) ≤ m := Nat.cast_nonneg m; linarith)
  rw [← this]
  refine setIntegral_congr_fun measurableSet_Ioi fun x _ => ?_
  simp only [Real.rpow_natCast, Real.rpow_two]

theorem gauss_line (j : ℕ) : ∫ r : ℝ, r ^ (2 * j) * Real.exp (-r ^ 2) = Real.Gamma (j + 1 / 2) := by
  have h := integral_comp_abs (f := fun r : ℝ => r ^ (2 * j) * Real.exp (-r ^ 2))
  simp only [pow_mul, sq_abs] at h
  simp only [pow_mul]
  rw [h]
  simp only [← pow_mul]
  rw [gauss_half]
  have : ((2 * j : ℕ) + 1 : ℝ) / 2 = j + 1 / 2 := by push_cast; ring
  rw [this]; ring

theorem moment_even (j : ℕ) : ∫ n, n 0 ^ (2 * j) ∂sph = 4 * Real.pi / (2 * j + 1) := by
  have h := polar (G := fun x => x 0 ^ (2 * j)) (m := 2 * j) (by fun_prop) (fun r _ x => by simp only [mul_pow])
  have hl : ∫ x : Fin 3 → ℝ, x 0 ^ (2 * j) * Real.exp (-∑ i, x i ^ 2) = Real.pi * Real.Gamma (j + 1 / 2) := by
    have e : ∀ x : Fin 3 → ℝ, x 0 ^ (2 * j) * Real.exp (-∑ i, x i ^ 2)
        = ∏ i, (fun (i : Fin 3) (t : ℝ) => t ^ (2 * if i = 0 then j else 0) * Real.exp (-t ^ 2)) i (x i) := by
      intro x
      simp only [Fin.prod_univ_three, Fin.sum_univ_three, neg_add, Real.exp_add]
      simp
      ring
    refine ((integral_congr_ae (Filter.Eventually.of_forall e)).trans (integral_fintype_prod_volume_eq_prod
      (fun (i : Fin 3) (t : ℝ) => t ^ (2 * if i = 0 then j else 0) * Real.exp (-t ^ 2)))).trans ?_
    simp only [gauss_line, Fin.prod_univ_three]
    have : Real.Gamma 2⁻¹ = Real.sqrt Real.pi := by rw [← one_div]; exact Real.Gamma_one_half_eq
    simp [this]
    rw [mul_assoc, Real.mul_self_sqrt Real.pi_pos.le]
    ring
  rw [hl, gauss_half] at h
  have e : ((2 * j + 2 : ℕ) + 1 : ℝ) / 2 = (j + 1 / 2) + 1 := by push_cast; ring
  have hj : (0 : ℝ) < j + 1 / 2 := by positivity
  rw [e, Real.Gamma_add_one hj.ne'] at h
  have hG := Real.Gamma_pos_of_pos hj
  have : Real.pi = (∫ n, n 0 ^ (2 * j) ∂sph) * (1 / 2 * (j + 1 / 2)) :=
    mul_right_cancel₀ hG.ne' (h.trans (by ring))
  rw [eq_div_iff (by positivity), this]
  ring

theorem integral_turn {Q : Fin 3 → Fin 3 → ℝ} (hQ : Orthogonal Q) {G : (Fin 3 → ℝ) → ℝ} (hG : Measurable G) :
    ∫ n, G (turnVec Q n) ∂sph = ∫ n, G n ∂sph := by
  conv_rhs => rw [← sph_turn hQ]
  rw [integral_map (measurable_turn Q).aemeasurable hG.aestronglyMeasurable]

/-- The matrix that changes the signs of the axes. -/
def flip (s : Fin 3 → ℝ) : Fin 3 → Fin 3 → ℝ := fun i j => if i = j then s i else 0

theorem flip_orth {s : Fin 3 → ℝ} (h : ∀ i, s i * s i = 1) : Orthogonal (flip s) := by
  intro i j
  have h0 := h 0
  have h1 := h 1
  have h2 := h 2
  fin_cases i <;> fin_cases j <;> simp [flip, dlt, h0, h1, h2]

theorem turn_flip (s : Fin 3 → ℝ) (n : Fin 3 → ℝ) (i : Fin 3) : turnVec (flip s) n i = s i * n i := by
  fin_cases i <;> simp [turnVec, flip]

theorem moment_odd (j : ℕ) : ∫ n, n 0 ^ (2 * j + 1) ∂sph = 0 := by
  have h := integral_turn (flip_orth (s := fun _ => -1) (by intro; norm_num)) (G := fun n => n 0 ^ (2 * j + 1)) (by fun_prop)
  simp only [turn_flip] at h
  have e : ∀ n : Fin 3 → ℝ, (-1 * n 0) ^ (2 * j + 1) = -(n 0 ^ (2 * j + 1)) := by
    intro n
    rw [neg_one_mul, Odd.neg_pow ⟨j, rfl⟩]
  simp only [e, integral_neg] at h
  linarith

theorem moment_all (m : ℕ) : ∫ n, n 0 ^ m ∂sph = 2 * Real.pi * ∫ c in (-1 : ℝ)..1, c ^ m := by
  rw [integral_pow]
  rcases Nat.even_or_odd' m with ⟨j, rfl | rfl⟩
  · rw [moment_even, Odd.neg_pow ⟨j, rfl⟩]
    push_cast
    field_simp
    norm_num
  · rw [moment_odd, Even.neg_pow ⟨j + 1, by ring⟩]
    simp

theorem sph_bound : ∀ᵐ n ∂sph, ∀ i, n i ∈ Icc (-1 : ℝ) 1 := by
  filter_upwards [sph_unit] with n hn i
  rw [Fin.sum_univ_three] at hn
  rw [mem_Icc, ← abs_le, ← sq_le_one_iff_abs_le_one]
  fin_cases i <;> simp only [Fin.zero_eta, Fin.mk_one, Fin.reduceFinMk] <;>
    linarith [sq_nonneg (n 0), sq_nonneg (n 1), sq_nonneg (n 2)]

/-- The component along the first axis is spread evenly over `[-1, 1]`. -/
theorem sph_axis : sph.map (fun n => n 0) = ENNReal.ofReal (2 * Real.pi) • volume.restrict (Icc (-1 : ℝ) 1) := by
  have m0 : Measurable fun n : Fin 3 → ℝ => n 0 := by fun_prop
  have pi2 : 0 < 2 * Real.pi := by have := Real.pi_pos; positivity
  have : IsFiniteMeasure (ENNReal.ofReal (2 * Real.pi) • volume.restrict (Icc (-1 : ℝ) 1)) :=
    Measure.smul_finite _ ENNReal.ofReal_ne_top
  set μ1 := sph.map (fun n => n 0) with h1
  set μ2 := ENNReal.ofReal (2 * Real.pi) • volume.restrict (Icc (-1 : ℝ) 1) with h2
  have : IsFiniteMeasure μ1 := by rw [h1]; infer_instance
  have s1 : ∀ᵐ c ∂μ1, c ∈ Icc (-1 : ℝ) 1 := by
    rw [h1]
    refine (ae_map_iff (p := fun c => c ∈ Icc (-1 : ℝ) 1) m0.aemeasurable measurableSet_Icc).mpr ?_
    filter_upwards [sph_bound] with n hn using hn 0
  have s2 : ∀ᵐ c ∂μ2, c ∈ Icc (-1 : ℝ) 1 :=
    Measure.ae_smul_measure (ae_restrict_mem measurableSet_Icc) _
  -- integrable functions
  have int : ∀ (μ : Measure ℝ) [IsFiniteMeasure μ], (∀ᵐ c ∂μ, c ∈ Icc (-1 : ℝ) 1) → ∀ f : ℝ → ℝ, Continuous f →
      Integrable f μ := by
    intro μ _ hμ f hf
    obtain ⟨C, hC⟩ := isCompact_Icc.exists_bound_of_continuousOn (s := Icc (-1 : ℝ) 1) hf.continuousOn
    exact Integrable.of_bound hf.aestronglyMeasurable C (hμ.mono fun c hc => hC c hc)
  -- monomials
  have mono : ∀ m : ℕ, ∫ c, c ^ m ∂μ1 = ∫ c, c ^ m ∂μ2 := by
    intro m
    rw [h1, h2, integral_map m0.aemeasurable (by fun_prop), moment_all, integral_smul_measure,
      ENNReal.toReal_ofReal pi2.le, intervalIntegral.integral_of_le (by norm_num), integral_Icc_eq_integral_Ioc]
    rfl
  have poly : ∀ p : Polynomial ℝ, ∫ c, p.eval c ∂μ1 = ∫ c, p.eval c ∂μ2 := by
    intro p
    simp only [Polynomial.eval_eq_sum_range]
    rw [integral_finsetSum _ fun i _ => int μ1 s1 _ (by fun_prop),
      integral_finsetSum _ fun i _ => int μ2 s2 _ (by fun_prop)]
    refine Finset.sum_congr rfl fun i _ => ?_
    rw [integral_const_mul, integral_const_mul, mono]
  refine ext_of_forall_integral_eq_of_IsFiniteMeasure fun f => ?_
  have hb : ∀ (μ : Measure ℝ) [IsFiniteMeasure μ], (∀ᵐ c ∂μ, c ∈ Icc (-1 : ℝ) 1) → ∀ (p : Polynomial ℝ) (ε : ℝ),
      (∀ x ∈ Icc (-1 : ℝ) 1, |p.eval x - f x| < ε) → |∫ c, p.eval c ∂μ - ∫ c, f c ∂μ| ≤ ε * μ.real univ := by
    intro μ _ hμ p ε hp
    rw [← integral_sub (int μ hμ _ p.continuous) (int μ hμ _ f.continuous)]
    exact norm_integral_le_of_norm_le_const (f := fun c => p.eval c - f c) (C := ε)
      (hμ.mono fun c hc => (hp c hc).le)
  by_contra hne
  have hd : 0 < |∫ c, f c ∂μ1 - ∫ c, f c ∂μ2| := abs_pos.mpr (sub_ne_zero.mpr hne)
  set d := |∫ c, f c ∂μ1 - ∫ c, f c ∂μ2| with hdd
  have hM : 0 ≤ μ1.real univ + μ2.real univ := by positivity
  obtain ⟨p, hp⟩ := exists_polynomial_near_of_continuousOn (-1) 1 f f.continuous.continuousOn
    (d / (μ1.real univ + μ2.real univ + 1)) (by positivity)
  have b1 := abs_le.mp (hb μ1 s1 p _ hp)
  have b2 := abs_le.mp (hb μ2 s2 p _ hp)
  rw [poly p] at b1
  have hlt : d / (μ1.real univ + μ2.real univ + 1) * (μ1.real univ + μ2.real univ) < d := by
    rw [div_mul_eq_mul_div, div_lt_iff₀ (by positivity)]
    nlinarith
  have : d ≤ d / (μ1.real univ + μ2.real univ + 1) * (μ1.real univ + μ2.real univ) := by
    rw [hdd, abs_le, ← hdd, mul_add]
    constructor <;> linarith [b1.1, b1.2, b2.1, b2.2]
  linarith

end SD.Sph
