import Verif.Lemmas.TwistRate
import Mathlib.Analysis.SpecialFunctions.Log.NegMulLog
import Mathlib.Analysis.Calculus.Deriv.Basic
import Mathlib.Analysis.Asymptotics.Lemmas

/-!
# The sums of images near contact
-/

set_option autoImplicit false

namespace SD.Twist

open Spec Filter Topology Asymptotics

theorem zeta_near {p0 : ℝ} (hp0 : 0 < p0) : ∃ C, ∀ p q, p0 ≤ p → p0 ≤ q → |Nearfield.zeta3 p - Nearfield.zeta3 q| ≤ C * |p - q| := by
  have hS := square_summable hp0
  refine ⟨3 / p0 ^ 2 * ∑' k : ℕ, 1 / ((k : ℝ) + p0) ^ 2, fun p q hp hq => ?_⟩
  have hb : ∀ k : ℕ, ‖1 / ((k : ℝ) + p) ^ 3 - 1 / ((k : ℝ) + q) ^ 3‖ ≤ 3 / p0 ^ 2 * |p - q| * (1 / ((k : ℝ) + p0) ^ 2) := fun k => by
    have hk : (0 : ℝ) ≤ k := Nat.cast_nonneg k
    have hA : p0 ≤ (k : ℝ) + p := by linarith
    have hB : p0 ≤ (k : ℝ) + q := by linarith
    have hA' : (k : ℝ) + p0 ≤ (k : ℝ) + p := by linarith
    have hB' : (k : ℝ) + p0 ≤ (k : ℝ) + q := by linarith
    have hA0 : 0 < (k : ℝ) + p := by linarith
    have hB0 : 0 < (k : ℝ) + q := by linarith
    have hk0 : 0 < (k : ℝ) + p0 := by positivity
    set A := 1 / ((k : ℝ) + p) with hAd
    set B := 1 / ((k : ℝ) + q) with hBd
    have hA1 : A ≤ 1 / ((k : ℝ) + p0) := one_div_le_one_div_of_le hk0 hA'
    have hB1 : B ≤ 1 / ((k : ℝ) + p0) := one_div_le_one_div_of_le hk0 hB'
    have hA2 : A ≤ 1 / p0 := one_div_le_one_div_of_le hp0 hA
    have hB2 : B ≤ 1 / p0 := one_div_le_one_div_of_le hp0 hB
    have hAp : 0 < A := by positivity
    have hBp : 0 < B := by positivity
    have e : 1 / ((k : ℝ) + p) ^ 3 - 1 / ((k : ℝ) + q) ^ 3 = (q - p) * ((A * B) * (A ^ 2 + A * B + B ^ 2)) := by
      rw [hAd, hBd]; field_simp; ring
    have h1 : A * B ≤ 1 / p0 * (1 / p0) := mul_le_mul hA2 hB2 hBp.le (by positivity)
    have h2 : A ^ 2 + A * B + B ^ 2 ≤ 3 * (1 / ((k : ℝ) + p0) ^ 2) := by
      have key : ∀ u v w : ℝ, 0 ≤ u → 0 ≤ v → u ≤ w → v ≤ w → u ^ 2 + u * v + v ^ 2 ≤ 3 * w ^ 2 := fun u v w h1 h2 h3 h4 => by
        nlinarith [mul_le_mul h3 h4 h2 (h1.trans h3), mul_le_mul h3 h3 h1 (h1.trans h3), mul_le_mul h4 h4 h2 (h1.trans h3)]
      rw [← one_div_pow]
      exact key _ _ _ hAp.le hBp.le hA1 hB1
    have h3 := mul_le_mul h1 h2 (by positivity) (by positivity)
    rw [e, norm_mul, Real.norm_eq_abs, Real.norm_eq_abs, abs_sub_comm, abs_of_pos (by positivity : 0 < (A * B) * (A ^ 2 + A * B + B ^ 2))]
    calc |p - q| * (A * B * (A ^ 2 + A * B + B ^ 2)) ≤ |p - q| * (1 / p0 * (1 / p0) * (3 * (1 / ((k : ℝ) + p0) ^ 2))) :=
          mul_le_mul_of_nonneg_left h3 (abs_nonneg _)
      _ = _ := by field_simp
  have hle := tsum_of_norm_bounded (hS.hasSum.mul_left (3 / p0 ^ 2 * |p - q|)) hb
  unfold Nearfield.zeta3
  rw [← (zeta_summable (by linarith : 0 < p)).tsum_sub (zeta_summable (by linarith : 0 < q))]
  rw [Real.norm_eq_abs] at hle
  exact hle.trans_eq (by ring)

/-- The expansion of the sums near contact, from the expansions of the parameters. -/
theorem expand {l : Filter ℝ} {X c g p Q : ℝ → ℝ} {m ab q0 p0 : ℝ} (hp0 : 0 < p0) (hq0 : p0 ≤ q0) (hm : 0 < m) (hab : 0 < ab)
    (hX : Tendsto X l (𝓝 0)) (hX0 : ∀ᶠ r in l, 0 < X r) (hc0 : ∀ᶠ r in l, 0 < c r) (hg0 : ∀ᶠ r in l, 0 < g r)
    (hg1 : ∀ᶠ r in l, g r ≤ 1) (hp : ∀ᶠ r in l, p0 ≤ p r ∧ p r ≤ 1) (hpq : (fun r => p r - q0) =O[l] X)
    (hcg : (fun r => c r / g r - m) =O[l] X) (hc : ∀ᶠ r in l, c r ^ 2 = X r * Q r) (hQ : (fun r => Q r - ab) =O[l] X) :
    (fun r => c r ^ 3 * (∑' k : ℕ, 1 / Real.sinh (g r * (k + p r)) ^ 3)
      - (m ^ 3 * Nearfield.zeta3 q0 + m * ab / 4 * (X r * Real.log (X r)))) =O[l] X := by
  have hXO : X =O[l] (fun _ => (1 : ℝ)) := hX.isBigO_one ℝ
  have tcg : Tendsto (fun r => c r / g r) l (𝓝 m) := by
    have := (hcg.trans_tendsto hX).add_const m
    simpa using this
  have tQ : Tendsto Q l (𝓝 ab) := by
    have := (hQ.trans_tendsto hX).add_const ab
    simpa using this
  have ocg : (fun r => c r / g r) =O[l] (fun _ => (1 : ℝ)) := tcg.isBigO_one ℝ
  have oQ : Q =O[l] (fun _ => (1 : ℝ)) := tQ.isBigO_one ℝ
  -- the remainder of the sum
  obtain ⟨C, hC, hs⟩ := sinh_sum hp0
  have E1 : (fun r => c r ^ 3 * ((∑' k : ℕ, 1 / Real.sinh (g r * (k + p r)) ^ 3) - Nearfield.zeta3 (p r) / g r ^ 3
      - Real.log (g r) / (2 * g r))) =O[l] X := by
    have h1 : (fun r => c r ^ 3 * ((∑' k : ℕ, 1 / Real.sinh (g r * (k + p r)) ^ 3) - Nearfield.zeta3 (p r) / g r ^ 3
      - Real.log (g r) / (2 * g r))) =O[l] (fun r => X r * (Q r * (c r / g r))) := by
      refine IsBigO.of_bound C ?_
      filter_upwards [hX0, hc0, hg0, hg1, hp, hc] with r x1 x2 x3 x4 x5 x6
      have h := hs (g r) (p r) x3 x4 x5.1 x5.2
      have hQ0 : 0 < Q r := by
        have : 0 < X r * Q r := by rw [← x6]; positivity
        exact (pos_iff_pos_of_mul_pos this).1 x1
      rw [norm_mul, Real.norm_eq_abs, Real.norm_eq_abs, abs_of_pos (by positivity : 0 < c r ^ 3), Real.norm_eq_abs,
        abs_of_pos (by positivity : 0 < X r * (Q r * (c r / g r)))]
      calc c r ^ 3 * _ ≤ c r ^ 3 * (C / g r) := mul_le_mul_of_nonneg_left h (by positivity)
        _ = C * (c r ^ 2 * (c r / g r)) := by ring
        _ = _ := by rw [x6]; ring
    have h2 := (isBigO_refl X l).mul (oQ.mul ocg)
    simp only [mul_one] at h2
    exact h1.trans h2
  -- the limit
  obtain ⟨D, hz⟩ := zeta_near hp0
  have ez : (fun r => Nearfield.zeta3 (p r) - Nearfield.zeta3 q0) =O[l] X := by
    refine IsBigO.trans ?_ hpq
    refine IsBigO.of_bound D ?_
    filter_upwards [hp] with r h
    rw [Real.norm_eq_abs, Real.norm_eq_abs]
    exact hz _ _ h.1 hq0
  have E2 : (fun r => (c r / g r) ^ 3 * Nearfield.zeta3 (p r) - m ^ 3 * Nearfield.zeta3 q0) =O[l] X := by
    have h1 := (ocg.pow 3).mul ez
    have oc2 := ocg.pow 2
    simp only [one_pow] at oc2
    have h2 := hcg.mul ((oc2.add (ocg.const_mul_left m)).add (isBigO_const_const (m ^ 2) one_ne_zero l))
    have h3 := h2.const_mul_left (Nearfield.zeta3 q0)
    simp only [one_pow, one_mul, mul_one] at h1 h3
    refine (h1.add h3).congr_left fun r => ?_
    ring
  -- the logarithm
  have tL : Tendsto (fun r => Real.log (Q r / (c r / g r) ^ 2)) l (𝓝 (Real.log (ab / m ^ 2))) :=
    (Real.continuousAt_log (by positivity)).tendsto.comp (tQ.div (tcg.pow 2) (by positivity))
  have oL := tL.isBigO_one ℝ
  have eW : (fun r => Q r * (c r / g r) - ab * m) =O[l] X := by
    have h1 := hQ.mul ocg
    have h2 := hcg.const_mul_left ab
    simp only [mul_one] at h1
    exact (h1.add h2).congr_left fun r => by ring
  have oW : (fun r => Q r * (c r / g r)) =O[l] (fun _ => (1 : ℝ)) := (tQ.mul tcg).isBigO_one ℝ
  have oXL : (fun r => X r * Real.log (X r)) =O[l] (fun _ => (1 : ℝ)) := by
    have := (Real.continuous_mul_log.tendsto 0).comp hX
    exact this.isBigO_one ℝ
  have E3 : (fun r => c r ^ 3 * (Real.log (g r) / (2 * g r)) - m * ab / 4 * (X r * Real.log (X r))) =O[l] X := by
    have h1 := (eW.mul oXL).const_mul_left (1 / 4)
    have h2 := ((isBigO_refl X l).mul (oW.mul oL)).const_mul_left (1 / 4)
    simp only [mul_one] at h1 h2
    refine (h1.add h2).congr' ?_ EventuallyEq.rfl
    filter_upwards [hX0, hc0, hg0, hc] with r x1 x2 x3 x6
    have hQ0 : 0 < Q r := by
      have : 0 < X r * Q r := by rw [← x6]; positivity
      exact (pos_iff_pos_of_mul_pos this).1 x1
    have hlog : Real.log (Q r / (c r / g r) ^ 2) = 2 * Real.log (g r) - Real.log (X r) := by
      rw [show Q r / (c r / g r) ^ 2 = g r ^ 2 / X r from by
        rw [div_pow, x6]; field_simp]
      rw [Real.log_div (by positivity) (by positivity), Real.log_pow]
      push_cast; ring
    rw [hlog, show c r ^ 3 * (Real.log (g r) / (2 * g r)) = c r ^ 2 * (c r / g r) * Real.log (g r) / 2 from by
      field_simp, x6]
    ring
  refine ((E1.add E2).add E3).congr_left fun r => ?_
  ring

/-- Half the length of the line between the limit points of the two families of images. -/
noncomputable def half (a b r : ℝ) : ℝ := √((r ^ 2 - (a - b) ^ 2) * (r ^ 2 - (a + b) ^ 2)) / (2 * r)

theorem chain_sinh {x g : ℝ} (hx : 0 < x) (k : ℕ) :
    chain (2 * Real.cosh g) (Real.sinh (x + g) / Real.sinh x) k = Real.sinh (x + k * g) / Real.sinh x := by
  have h0 : Real.sinh x ≠ 0 := (Real.sinh_pos_iff.2 hx).ne'
  induction k using Nat.twoStepInduction with
  | zero => simp [chain, h0]
  | one => simp [chain]
  | more k h1 h2 =>
    rw [chain, h1, h2]
    push_cast
    rw [show x + ((k : ℝ) + 2) * g = (x + (k + 1) * g) + g from by ring, show x + (k : ℝ) * g = (x + (k + 1) * g) - g from by ring]
    generalize x + ((k : ℝ) + 1) * g = y
    rw [Real.sinh_add, Real.sinh_sub]
    field_simp
    ring

section

variable {a b r : ℝ}

theorem half_sq (ha : 0 < a) (hb : 0 < b) (hr : a + b < r) :
    half a b r ^ 2 = (r ^ 2 - (a - b) ^ 2) * (r ^ 2 - (a + b) ^ 2) / (4 * r ^ 2) := by
  have h1 : 0 ≤ r ^ 2 - (a + b) ^ 2 := by nlinarith
  have h2 : 0 ≤ r ^ 2 - (a - b) ^ 2 := by nlinarith
  unfold half
  rw [div_pow, Real.sq_sqrt (mul_nonneg h2 h1)]
  ring

theorem half_pos (ha : 0 < a) (hb : 0 < b) (hr : a + b < r) : 0 < half a b r := by
  have h1 : 0 < r ^ 2 - (a + b) ^ 2 := by nlinarith
  have h2 : 0 < r ^ 2 - (a - b) ^ 2 := by nlinarith
  have h3 : 0 < r := by linarith
  unfold half
  positivity

theorem half_comm : half a b r = half b a r := by
  unfold half
  rw [show (a - b) ^ 2 = (b - a) ^ 2 from by ring, add_comm a b]

theorem cosh_half (ha : 0 < a) (hb : 0 < b) (hr : a + b < r) :
    Real.cosh (Real.arsinh (half a b r / a)) = (r ^ 2 + a ^ 2 - b ^ 2) / (2 * r * a) := by
  have h3 : 0 < r := by linarith
  rw [Real.cosh_arsinh, Real.sqrt_eq_iff_mul_self_eq (by positivity)
    (div_nonneg (by nlinarith) (by positivity)), div_pow, half_sq ha hb hr]
  field_simp
  ring

/-- The step between images. -/
noncomputable def gam (a b r : ℝ) : ℝ := Real.arsinh (half a b r / a) + Real.arsinh (half a b r / b)

theorem cosh_gam (ha : 0 < a) (hb : 0 < b) (hr : a + b < r) : 2 * Real.cosh (gam a b r) = (r ^ 2 - a ^ 2 - b ^ 2) / (a * b) := by
  have h3 : 0 < r := by linarith
  unfold gam
  have hb' := cosh_half hb ha (by linarith : b + a < r)
  rw [half_comm] at hb'
  rw [Real.cosh_add, cosh_half ha hb hr, hb', Real.sinh_arsinh, Real.sinh_arsinh]
  have e : half a b r / a * (half a b r / b) = half a b r ^ 2 / (a * b) := by field_simp
  rw [e, half_sq ha hb hr]
  field_simp
  ring

theorem sinh_gam (ha : 0 < a) (hb : 0 < b) (hr : a + b < r) : Real.sinh (gam a b r) = half a b r * r / (a * b) := by
  have h3 : 0 < r := by linarith
  unfold gam
  have hb' := cosh_half hb ha (by linarith : b + a < r)
  rw [half_comm] at hb'
  rw [Real.sinh_add, cosh_half ha hb hr, hb', Real.sinh_arsinh, Real.sinh_arsinh]
  field_simp
  ring

theorem arsinh_pos' {x : ℝ} (hx : 0 < x) : 0 < Real.arsinh x := Real.arsinh_pos_iff.2 hx

theorem gam_pos (ha : 0 < a) (hb : 0 < b) (hr : a + b < r) : 0 < gam a b r := by
  have := half_pos ha hb hr
  have h1 := arsinh_pos' (x := half a b r / a) (by positivity)
  have h2 := arsinh_pos' (x := half a b r / b) (by positivity)
  unfold gam
  linarith

theorem ratio_sinh (ha : 0 < a) (hb : 0 < b) (hr : a + b < r) : ratio a b r 0
    = Real.sinh (Real.arsinh (half a b r / a) + gam a b r) / Real.sinh (Real.arsinh (half a b r / a)) := by
  have h3 : 0 < r := by linarith
  have h4 := half_pos ha hb hr
  have hc : Real.cosh (gam a b r) = (r ^ 2 - a ^ 2 - b ^ 2) / (a * b) / 2 := by linarith [cosh_gam ha hb hr]
  rw [Real.sinh_add, hc, sinh_gam ha hb hr, cosh_half ha hb hr, Real.sinh_arsinh]
  unfold ratio
  field_simp
  ring

theorem own_sinh (ha : 0 < a) (hb : 0 < b) (hr : a + b < r) :
    a ^ 3 * ∑' k, 1 / chain ((r ^ 2 - a ^ 2 - b ^ 2) / (a * b)) (ratio a b r 0) k ^ 3
      = half a b r ^ 3 * ∑' k : ℕ, 1 / Real.sinh (gam a b r * (k + Real.arsinh (half a b r / a) / gam a b r)) ^ 3 := by
  have h4 := half_pos ha hb hr
  have h5 := gam_pos ha hb hr
  have h6 := arsinh_pos' (x := half a b r / a) (by positivity)
  rw [← tsum_mul_left, ← tsum_mul_left]
  refine tsum_congr fun k => ?_
  rw [ratio_sinh ha hb hr, ← cosh_gam ha hb hr, chain_sinh h6, Real.sinh_arsinh,
    show gam a b r * (k + Real.arsinh (half a b r / a) / gam a b r) = Real.arsinh (half a b r / a) + k * gam a b r from by
      field_simp; ring]
  have : 0 < Real.sinh (Real.arsinh (half a b r / a) + k * gam a b r) := Real.sinh_pos_iff.2 (by positivity)
  field_simp

theorem far_sinh (ha : 0 < a) (hb : 0 < b) (hr : a + b < r) :
    (a * b / r) ^ 3 * ∑' k, 1 / chain ((r ^ 2 - a ^ 2 - b ^ 2) / (a * b)) ((r ^ 2 - a ^ 2 - b ^ 2) / (a * b)) k ^ 3
      = half a b r ^ 3 * ∑' k : ℕ, 1 / Real.sinh (gam a b r * (k + 1)) ^ 3 := by
  have h3 : 0 < r := by linarith
  have h4 := half_pos ha hb hr
  have h5 := gam_pos ha hb hr
  have h6 : (r ^ 2 - a ^ 2 - b ^ 2) / (a * b) = Real.sinh (gam a b r + gam a b r) / Real.sinh (gam a b r) := by
    have := (Real.sinh_pos_iff.2 h5).ne'
    rw [← cosh_gam ha hb hr, Real.sinh_add]
    field_simp
    ring
  rw [← tsum_mul_left, ← tsum_mul_left]
  refine tsum_congr fun k => ?_
  have e : chain ((r ^ 2 - a ^ 2 - b ^ 2) / (a * b)) ((r ^ 2 - a ^ 2 - b ^ 2) / (a * b)) k
      = Real.sinh (gam a b r * (k + 1)) / Real.sinh (gam a b r) := by
    rw [show gam a b r * ((k : ℝ) + 1) = gam a b r + k * gam a b r from by ring, ← chain_sinh h5, cosh_gam ha hb hr, ← h6]
  rw [e, sinh_gam ha hb hr]
  have : 0 < Real.sinh (gam a b r * (k + 1)) := Real.sinh_pos_iff.2 (by positivity)
  field_simp

end

theorem arsinh_near {x : ℝ} (h0 : 0 ≤ x) (h1 : x ≤ 1) : |Real.arsinh x - x| ≤ x ^ 3 := by
  set y := Real.arsinh x with hy
  have hx : Real.sinh y = x := Real.sinh_arsinh x
  have hy0 : 0 ≤ y := Real.arsinh_nonneg_iff.2 h0
  have hyx : y ≤ x := by rw [← hx]; exact Real.self_le_sinh_iff.2 hy0
  have h := sinh_near hy0 (hyx.trans h1)
  rw [hx, abs_le] at h
  have h5 : y ^ 5 ≤ y ^ 3 := pow_le_pow_of_le_one hy0 (hyx.trans h1) (by norm_num)
  have h3 : y ^ 3 ≤ x ^ 3 := pow_le_pow_left₀ hy0 hyx 3
  have : 0 ≤ y ^ 3 := by positivity
  rw [abs_le]
  constructor <;> linarith [h.1, h.2]

/-- The parameters of the sums near contact. -/
theorem params {a b : ℝ} (ha : 0 < a) (hb : 0 < b) {X : ℝ → ℝ} (hXd : X = fun r => 2 * r / (a + b) - 2) :
    Tendsto X (𝓝[>] (a + b)) (𝓝 0) ∧
    (∀ᶠ r in 𝓝[>] (a + b), half a b r ^ 2 = X r * ((a + b) * (r + a + b) * (r ^ 2 - (a - b) ^ 2) / (8 * r ^ 2))) ∧
    ((fun r => (a + b) * (r + a + b) * (r ^ 2 - (a - b) ^ 2) / (8 * r ^ 2) - a * b) =O[𝓝[>] (a + b)] X) ∧
    Tendsto (fun r => half a b r) (𝓝[>] (a + b)) (𝓝 0) ∧
    ((fun r => Real.arsinh (half a b r / a) / half a b r - 1 / a) =O[𝓝[>] (a + b)] X) ∧
    ((fun r => Real.arsinh (half a b r / b) / half a b r - 1 / b) =O[𝓝[>] (a + b)] X) ∧
    ((fun r => half a b r / gam a b r - a * b / (a + b)) =O[𝓝[>] (a + b)] X) := by
  have hab : a + b ≠ 0 := by positivity
  have hab0 : 0 < a + b := by positivity
  have hid : Tendsto (fun r : ℝ => r) (𝓝[>] (a + b)) (𝓝 (a + b)) := tendsto_id.mono_left nhdsWithin_le_nhds
  have hev : ∀ᶠ r in 𝓝[>] (a + b), a + b < r := eventually_mem_nhdsWithin
  have hX : Tendsto X (𝓝[>] (a + b)) (𝓝 0) := by
    have := ((hid.const_mul 2).div_const (a + b)).sub_const 2
    rw [mul_div_assoc, div_self hab, mul_one, sub_self] at this
    rwa [hXd]
  have hXr : (fun r : ℝ => r - (a + b)) =O[𝓝[>] (a + b)] X := by
    refine IsBigO.of_bound ((a + b) / 2) (Eventually.of_forall fun r => ?_)
    rw [Real.norm_eq_abs, Real.norm_eq_abs, hXd, show r - (a + b) = (a + b) / 2 * (2 * r / (a + b) - 2) from by field_simp,
      abs_mul, abs_of_pos (by positivity : 0 < (a + b) / 2)]
  have hsq : ∀ᶠ r in 𝓝[>] (a + b), half a b r ^ 2 = X r * ((a + b) * (r + a + b) * (r ^ 2 - (a - b) ^ 2) / (8 * r ^ 2)) := by
    filter_upwards [hev] with r hr
    have h3 : r ≠ 0 := by linarith
    rw [half_sq ha hb hr, hXd]
    field_simp
    ring
  have hQ : (fun r => (a + b) * (r + a + b) * (r ^ 2 - (a - b) ^ 2) / (8 * r ^ 2) - a * b) =O[𝓝[>] (a + b)] X := by
    have hd : DifferentiableAt ℝ (fun r : ℝ => (a + b) * (r + a + b) * (r ^ 2 - (a - b) ^ 2) / (8 * r ^ 2)) (a + b) := by
      refine DifferentiableAt.div (by fun_prop) (by fun_prop) (by positivity)
    have h := hd.isBigO_sub.mono (nhdsWithin_le_nhds (s := Set.Ioi (a + b)))
    refine (h.congr_left fun r => ?_).trans hXr
    congr 1
    field_simp
    ring
  have tQ : Tendsto (fun r => (a + b) * (r + a + b) * (r ^ 2 - (a - b) ^ 2) / (8 * r ^ 2)) (𝓝[>] (a + b)) (𝓝 (a * b)) := by
    have := (hQ.trans_tendsto hX).add_const (a * b)
    simpa using this
  have hh : Tendsto (fun r => half a b r) (𝓝[>] (a + b)) (𝓝 0) := by
    have h := (hX.mul tQ)
    rw [zero_mul] at h
    have h2 := (Real.continuous_sqrt.tendsto 0).comp h
    rw [Real.sqrt_zero] at h2
    refine h2.congr' ?_
    filter_upwards [hsq, hev] with r h1 hr
    simp only [Function.comp]
    rw [← h1, Real.sqrt_sq (half_pos ha hb hr).le]
  have hsqO : (fun r => half a b r ^ 2) =O[𝓝[>] (a + b)] X := by
    have h := (isBigO_refl X (𝓝[>] (a + b))).mul (tQ.isBigO_one ℝ)
    simp only [mul_one] at h
    exact h.congr' (hsq.mono fun r h => h.symm) EventuallyEq.rfl
  have hars : ∀ e : ℝ, 0 < e → (fun r => Real.arsinh (half a b r / e) / half a b r - 1 / e) =O[𝓝[>] (a + b)] X := fun e he => by
    refine IsBigO.trans ?_ hsqO
    refine IsBigO.of_bound (1 / e ^ 3) ?_
    filter_upwards [hev, hh.eventually_le_const he] with r hr hle
    have h0 := half_pos ha hb hr
    have h := arsinh_near (x := half a b r / e) (by positivity) (by rwa [div_le_one he])
    rw [Real.norm_eq_abs, Real.norm_eq_abs, abs_of_pos (by positivity : 0 < half a b r ^ 2),
      show Real.arsinh (half a b r / e) / half a b r - 1 / e = (Real.arsinh (half a b r / e) - half a b r / e) / half a b r from by
        field_simp, abs_div, abs_of_pos h0, div_le_iff₀ h0]
    exact h.trans_eq (by field_simp)
  have h1 := hars a ha
  have h2 := hars b hb
  refine ⟨hX, hsq, hQ, hh, h1, h2, ?_⟩
  have hs : (fun r => gam a b r / half a b r - (a + b) / (a * b)) =O[𝓝[>] (a + b)] X :=
    (h1.add h2).congr_left fun r => by unfold gam; field_simp; ring
  have ts : Tendsto (fun r => gam a b r / half a b r) (𝓝[>] (a + b)) (𝓝 ((a + b) / (a * b))) := by
    have := (hs.trans_tendsto hX).add_const ((a + b) / (a * b))
    simpa using this
  have ti : Tendsto (fun r => half a b r / gam a b r) (𝓝[>] (a + b)) (𝓝 (a * b / (a + b))) := by
    have := ts.inv₀ (by positivity)
    rw [inv_div] at this
    exact this.congr fun r => inv_div _ _
  have h := (hs.mul (ti.isBigO_one ℝ)).const_mul_left (-(a * b / (a + b)))
  simp only [mul_one] at h
  refine h.congr' ?_ EventuallyEq.rfl
  filter_upwards [hev] with r hr
  have h0 := (half_pos ha hb hr).ne'
  have h5 := (gam_pos ha hb hr).ne'
  field_simp
  ring

end SD.Twist
