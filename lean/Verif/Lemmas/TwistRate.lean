import Verif.Lemmas.Twist
import Mathlib.Analysis.Complex.ExponentialBounds
import Mathlib.Analysis.SpecialFunctions.Arsinh
import Mathlib.Analysis.SpecialFunctions.Log.Deriv
import Mathlib.Analysis.SpecificLimits.Normed

/-!
# Sums of inverse cubes of hyperbolic sines
-/

set_option autoImplicit false

namespace SD.Twist

open Filter Topology

theorem sinh_near {x : ℝ} (h0 : 0 ≤ x) (h1 : x ≤ 1) : |Real.sinh x - (x + x ^ 3 / 6)| ≤ x ^ 5 / 100 := by
  have e1 := Real.exp_bound (x := x) (by rwa [abs_of_nonneg h0]) (n := 5) (by norm_num)
  have e2 := Real.exp_bound (x := -x) (by rwa [abs_neg, abs_of_nonneg h0]) (n := 5) (by norm_num)
  rw [abs_neg] at e2
  rw [abs_of_nonneg h0] at e1 e2
  norm_num [Finset.sum_range_succ, Nat.factorial] at e1 e2
  rw [Real.sinh_eq]
  rw [abs_le] at e1 e2 ⊢
  constructor <;> linarith [e1.1, e1.2, e2.1, e2.2]

theorem cube_near {x : ℝ} (h0 : 0 < x) (h1 : x ≤ 1) : |1 / Real.sinh x ^ 3 - 1 / x ^ 3 + 1 / (2 * x)| ≤ 1 := by
  have hs := sinh_near h0.le h1
  have hx : x ≤ Real.sinh x := Real.self_le_sinh_iff.2 h0.le
  set v := Real.sinh x / x with hv
  have hsv : Real.sinh x = x * v := by rw [hv]; field_simp
  have hv1 : 1 ≤ v := by rw [hv, le_div_iff₀ h0]; linarith
  obtain ⟨e, he⟩ : ∃ e, v = 1 + x ^ 2 / 6 + e := ⟨v - 1 - x ^ 2 / 6, by ring⟩
  have hee : |e| ≤ x ^ 4 / 100 := by
    rw [hsv, he, show x * (1 + x ^ 2 / 6 + e) - (x + x ^ 3 / 6) = x * e from by ring, abs_mul, abs_of_pos h0] at hs
    have : x * |e| ≤ x * (x ^ 4 / 100) := hs.trans_eq (by ring)
    exact le_of_mul_le_mul_left this h0
  have hx2 : x ^ 2 ≤ 1 := by nlinarith
  obtain ⟨w, hw⟩ : ∃ w, w = x ^ 2 / 6 + e := ⟨_, rfl⟩
  have hvw : v = 1 + w := by rw [he, hw]; ring
  have hw0 : 0 ≤ w := by linarith
  have hw1 : w ≤ x ^ 2 / 5 := by
    have := (abs_le.1 hee).2
    nlinarith [sq_nonneg x]
  have hnum : |2 - 2 * v ^ 3 + x ^ 2 * v ^ 3| ≤ 2 * x ^ 4 := by
    have e1 : 2 - 2 * v ^ 3 + x ^ 2 * v ^ 3 = -6 * e - (6 * w ^ 2 + 2 * w ^ 3) + x ^ 2 * (3 * w + 3 * w ^ 2 + w ^ 3) := by
      rw [hvw]
      have : e = w - x ^ 2 / 6 := by linarith
      rw [this]; ring
    have h4 : 0 ≤ x ^ 4 := by positivity
    have hw2 : w ^ 2 ≤ x ^ 4 / 25 := by nlinarith [pow_le_pow_left₀ hw0 hw1 2]
    have hwl : w ≤ 1 / 5 := by linarith
    have hw3 : w ^ 3 ≤ x ^ 4 / 125 := by nlinarith [sq_nonneg w]
    have hw30 : 0 ≤ w ^ 3 := by positivity
    have hxw : x ^ 2 * (3 * w + 3 * w ^ 2 + w ^ 3) ≤ x ^ 4 := by
      have : 3 * w + 3 * w ^ 2 + w ^ 3 ≤ 5 * w := by nlinarith
      calc x ^ 2 * (3 * w + 3 * w ^ 2 + w ^ 3) ≤ x ^ 2 * (5 * w) := mul_le_mul_of_nonneg_left this (sq_nonneg x)
        _ ≤ x ^ 2 * x ^ 2 := mul_le_mul_of_nonneg_left (by linarith) (sq_nonneg x)
        _ = x ^ 4 := by ring
    have hxw0 : 0 ≤ x ^ 2 * (3 * w + 3 * w ^ 2 + w ^ 3) := by positivity
    rw [e1]
    rw [abs_le] at hee ⊢
    constructor <;> nlinarith [hee.1, hee.2, sq_nonneg w]
  have e2 : 1 / Real.sinh x ^ 3 - 1 / x ^ 3 + 1 / (2 * x) = (2 - 2 * v ^ 3 + x ^ 2 * v ^ 3) / (2 * x ^ 3 * v ^ 3) := by
    rw [hsv]
    have : v ≠ 0 := by positivity
    field_simp
  have hv3 : 1 ≤ v ^ 3 := one_le_pow₀ hv1
  rw [e2, abs_div, abs_of_pos (by positivity : 0 < 2 * x ^ 3 * v ^ 3), div_le_one (by positivity)]
  refine hnum.trans ?_
  have hx3 : 0 < x ^ 3 := by positivity
  calc 2 * x ^ 4 = 2 * x ^ 3 * x := by ring
    _ ≤ 2 * x ^ 3 * v ^ 3 := mul_le_mul_of_nonneg_left (by linarith) (by positivity)

theorem cube_bound {x : ℝ} (h0 : 0 < x) :
    |1 / Real.sinh x ^ 3 - 1 / x ^ 3 + Real.exp (-x) / (2 * x)| ≤ 8 / (1 + x) ^ 2 := by
  have he1 : 1 - x ≤ Real.exp (-x) := by linarith [Real.add_one_le_exp (-x)]
  have he2 : Real.exp (-x) ≤ 1 := Real.exp_le_one_iff.2 (by linarith)
  have he3 : Real.exp (-x) * x ≤ 1 := by
    have := Real.add_one_le_exp x
    rw [Real.exp_neg, inv_mul_le_iff₀ (Real.exp_pos x)]; linarith
  rcases le_total x 1 with h1 | h1
  · have h := cube_near h0 h1
    have e : 1 / Real.sinh x ^ 3 - 1 / x ^ 3 + Real.exp (-x) / (2 * x)
        = (1 / Real.sinh x ^ 3 - 1 / x ^ 3 + 1 / (2 * x)) - (1 - Real.exp (-x)) / (2 * x) := by ring
    have h2 : (1 - Real.exp (-x)) / (2 * x) ≤ 1 / 2 := by rw [div_le_iff₀ (by positivity)]; linarith
    have h3 : 0 ≤ (1 - Real.exp (-x)) / (2 * x) := div_nonneg (by linarith) (by positivity)
    have h4 : 2 ≤ 8 / (1 + x) ^ 2 := by rw [le_div_iff₀ (by positivity)]; nlinarith
    rw [e]
    rw [abs_le] at h ⊢
    constructor <;> linarith [h.1, h.2]
  · have hx : x ≤ Real.sinh x := Real.self_le_sinh_iff.2 h0.le
    have h2 : 1 / Real.sinh x ^ 3 ≤ 1 / x ^ 3 := one_div_le_one_div_of_le (by positivity) (pow_le_pow_left₀ h0.le hx 3)
    have h3 : 0 ≤ 1 / Real.sinh x ^ 3 := by have : 0 < Real.sinh x := by linarith
                                            positivity
    have h4 : 1 / x ^ 3 ≤ 8 / (1 + x) ^ 2 := by
      rw [div_le_div_iff₀ (by positivity) (by positivity)]
      have : x ^ 2 ≤ x ^ 3 := by nlinarith [sq_nonneg x]
      nlinarith
    have h5 : Real.exp (-x) / (2 * x) ≤ 8 / (1 + x) ^ 2 := by
      rw [div_le_div_iff₀ (by positivity) (by positivity)]
      have : (1 + x) ^ 2 ≤ 4 * x ^ 2 := by nlinarith
      have : Real.exp (-x) * (1 + x) ^ 2 ≤ Real.exp (-x) * (4 * x ^ 2) := mul_le_mul_of_nonneg_left this (Real.exp_pos _).le
      nlinarith
    have h6 : 0 ≤ Real.exp (-x) / (2 * x) := by have := Real.exp_pos (-x); positivity
    rw [abs_le]
    constructor <;> linarith

theorem exp_near {x y : ℝ} (h0 : 0 < x) (h1 : x ≤ y) :
    |Real.exp (-x) / (2 * x) - Real.exp (-y) / (2 * y)| ≤ (y - x) / x ^ 2 := by
  have hy : 0 < y := by linarith
  have he3 : Real.exp (-x) * x ≤ 1 := by
    have := Real.add_one_le_exp x
    rw [Real.exp_neg, inv_mul_le_iff₀ (Real.exp_pos x)]; linarith
  have hex : Real.exp (-x) ≤ 1 := Real.exp_le_one_iff.2 (by linarith)
  have hey : Real.exp (-y) ≤ Real.exp (-x) := Real.exp_le_exp.2 (by linarith)
  have hd : Real.exp (-x) - Real.exp (-y) ≤ (y - x) * Real.exp (-x) := by
    have : Real.exp (-y) = Real.exp (-x) * Real.exp (-(y - x)) := by rw [← Real.exp_add]; ring_nf
    have h := Real.add_one_le_exp (-(y - x))
    rw [this]
    nlinarith [Real.exp_pos (-x)]
  have e : Real.exp (-x) / (2 * x) - Real.exp (-y) / (2 * y)
      = ((y - x) * Real.exp (-x) + x * (Real.exp (-x) - Real.exp (-y))) / (2 * x * y) := by field_simp; ring
  have hn : 0 ≤ (y - x) * Real.exp (-x) + x * (Real.exp (-x) - Real.exp (-y)) := by
    have := Real.exp_pos (-x)
    have h1 : 0 ≤ (y - x) * Real.exp (-x) := mul_nonneg (by linarith) this.le
    have h2 : 0 ≤ x * (Real.exp (-x) - Real.exp (-y)) := mul_nonneg h0.le (by linarith)
    linarith
  rw [e, abs_of_nonneg (div_nonneg hn (by positivity)), div_le_div_iff₀ (by positivity) (by positivity)]
  have h3 : (y - x) * Real.exp (-x) + x * (Real.exp (-x) - Real.exp (-y)) ≤ 2 * (y - x) := by
    have h4 : x * (Real.exp (-x) - Real.exp (-y)) ≤ (y - x) * (Real.exp (-x) * x) := by nlinarith
    have h5 : (y - x) * (Real.exp (-x) * x) ≤ (y - x) * 1 := mul_le_mul_of_nonneg_left he3 (by linarith)
    have h6 : (y - x) * Real.exp (-x) ≤ (y - x) * 1 := mul_le_mul_of_nonneg_left hex (by linarith)
    linarith
  calc _ ≤ 2 * (y - x) * x ^ 2 := mul_le_mul_of_nonneg_right h3 (by positivity)
    _ ≤ (y - x) * (2 * x * y) := by nlinarith [mul_nonneg (by linarith : 0 ≤ y - x) h0.le]

/-- A sum that telescopes. -/
theorem tele_sum {g : ℝ} (hg : 0 < g) : HasSum (fun k : ℕ => g / ((1 + g * k) * (1 + g * (k + 1)))) 1 := by
  rw [hasSum_iff_tendsto_nat_of_nonneg fun k => by positivity]
  have e : ∀ n : ℕ, ∑ k ∈ Finset.range n, g / ((1 + g * (k : ℝ)) * (1 + g * (k + 1))) = 1 - 1 / (1 + g * n) := fun n => by
    induction n with
    | zero => simp
    | succ n ih =>
      rw [Finset.sum_range_succ, ih]
      push_cast
      have : (0 : ℝ) < 1 + g * n := by positivity
      have : (0 : ℝ) < 1 + g * (n + 1) := by positivity
      field_simp
      ring
  simp only [e]
  have h : Tendsto (fun n : ℕ => 1 + g * (n : ℝ)) atTop atTop :=
    tendsto_atTop_add_const_left _ _ (tendsto_natCast_atTop_atTop.const_mul_atTop hg)
  simpa using (tendsto_const_nhds (x := (1 : ℝ))).sub ((tendsto_const_nhds (x := (1 : ℝ))).div_atTop h)

theorem log_sum {g : ℝ} (hg : 0 < g) :
    HasSum (fun k : ℕ => Real.exp (-(g * (k + 1))) / (2 * (g * (k + 1)))) (-Real.log (1 - Real.exp (-g)) / (2 * g)) := by
  have h := (Real.hasSum_pow_div_log_of_abs_lt_one (x := Real.exp (-g))
    (by rw [abs_of_pos (Real.exp_pos _)]; rw [← Real.exp_zero]; exact Real.exp_lt_exp.2 (by linarith))).div_const (2 * g)
  refine h.congr_fun fun k => ?_
  rw [← Real.exp_nat_mul]
  push_cast
  rw [show ((k : ℝ) + 1) * -g = -(g * (k + 1)) from by ring, div_div]
  ring_nf

theorem log_near {g : ℝ} (hg : 0 < g) (h1 : g ≤ 1) : |Real.log (1 - Real.exp (-g)) - Real.log g| ≤ 1 := by
  have e1 : 1 - Real.exp (-g) ≤ g := by linarith [Real.add_one_le_exp (-g)]
  have e2 : g / 2 ≤ 1 - Real.exp (-g) := by
    have h := Real.add_one_le_exp g
    have : Real.exp (-g) ≤ 1 / (1 + g) := by
      rw [Real.exp_neg, ← one_div]; exact one_div_le_one_div_of_le (by positivity) (by linarith)
    have h2 : 1 / (1 + g) ≤ 1 - g / 2 := by rw [div_le_iff₀ (by positivity)]; nlinarith
    linarith
  have e3 : 0 < 1 - Real.exp (-g) := by linarith
  have l1 := Real.log_le_log e3 e1
  have l2 := Real.log_le_log (by positivity) e2
  rw [Real.log_div hg.ne' (by norm_num)] at l2
  have := Real.log_two_lt_d9
  rw [abs_le]
  constructor <;> linarith

theorem square_summable {c : ℝ} (hc : 0 < c) : Summable fun k : ℕ => 1 / ((k : ℝ) + c) ^ 2 := by
  have h := (summable_nat_add_iff 1).2 (Real.summable_one_div_nat_pow.2 (by norm_num : 1 < 2))
  refine (h.mul_left (1 / (min 1 c) ^ 2)).of_nonneg_of_le (fun k => by positivity) fun k => ?_
  have hm : 0 < min 1 c := lt_min one_pos hc
  rw [one_div_mul_one_div, ← mul_pow]
  refine one_div_le_one_div_of_le (by positivity) (pow_le_pow_left₀ (by positivity) ?_ 2)
  push_cast
  have h1 := min_le_left 1 c
  have h2 := min_le_right 1 c
  nlinarith [Nat.cast_nonneg (α := ℝ) k]

theorem zeta_summable {c : ℝ} (hc : 0 < c) : Summable fun k : ℕ => 1 / ((k : ℝ) + c) ^ 3 := by
  have h := (cube_summable (inv_pos.2 hc)).mul_left (c⁻¹ ^ 3)
  refine h.congr fun k => ?_
  have : 0 < (k : ℝ) + c := by positivity
  rw [show 1 + (k : ℝ) * c⁻¹ = c⁻¹ * (k + c) from by field_simp; ring]
  field_simp

/-- The sum of inverse cubes of hyperbolic sines at equal steps. -/
theorem sinh_sum {p0 : ℝ} (hp0 : 0 < p0) : ∃ C, 0 < C ∧ ∀ g p, 0 < g → g ≤ 1 → p0 ≤ p → p ≤ 1 →
    |(∑' k : ℕ, 1 / Real.sinh (g * (k + p)) ^ 3) - Nearfield.zeta3 p / g ^ 3 - Real.log g / (2 * g)| ≤ C / g := by
  have hS := square_summable hp0
  refine ⟨17 + ∑' k : ℕ, 1 / ((k : ℝ) + p0) ^ 2, ?_, fun g p hg hg1 hp hp1 => ?_⟩
  · have : 0 ≤ ∑' k : ℕ, 1 / ((k : ℝ) + p0) ^ 2 := tsum_nonneg fun k => by positivity
    linarith
  have hpp : 0 < p := by linarith
  set S := ∑' k : ℕ, 1 / ((k : ℝ) + p0) ^ 2 with hSd
  have hb : ∀ k : ℕ, ‖1 / Real.sinh (g * (k + p)) ^ 3 - 1 / (g * (k + p)) ^ 3
      + Real.exp (-(g * ((k : ℝ) + 1))) / (2 * (g * ((k : ℝ) + 1)))‖
      ≤ 16 / g * (g / ((1 + g * k) * (1 + g * (k + 1)))) + 1 / g * (1 / ((k : ℝ) + p0) ^ 2) := fun k => by
    have hk : (0 : ℝ) ≤ k := Nat.cast_nonneg k
    have hx : 0 < g * ((k : ℝ) + p) := by positivity
    have h1 := cube_bound hx
    have h2 := exp_near hx (mul_le_mul_of_nonneg_left (by linarith : (k : ℝ) + p ≤ k + 1) hg.le)
    have h3 : 8 / (1 + g * ((k : ℝ) + p)) ^ 2 ≤ 16 / g * (g / ((1 + g * k) * (1 + g * (k + 1)))) := by
      rw [show 16 / g * (g / ((1 + g * (k : ℝ)) * (1 + g * (k + 1)))) = 16 / ((1 + g * k) * (1 + g * (k + 1))) from by
        field_simp]
      rw [div_le_div_iff₀ (by positivity) (by positivity)]
      have hgk : 0 ≤ g * (k : ℝ) := by positivity
      have : 1 + g * ((k : ℝ) + 1) ≤ 2 * (1 + g * k) := by nlinarith
      have h5 : (1 + g * (k : ℝ)) * (1 + g * (k + 1)) ≤ 2 * (1 + g * k) ^ 2 := by nlinarith
      have h6 : (1 + g * (k : ℝ)) ^ 2 ≤ (1 + g * (k + p)) ^ 2 := pow_le_pow_left₀ (by positivity) (by nlinarith) 2
      linarith
    have h4 : (g * ((k : ℝ) + 1) - g * (k + p)) / (g * (k + p)) ^ 2 ≤ 1 / g * (1 / ((k : ℝ) + p0) ^ 2) := by
      rw [one_div_mul_one_div, div_le_div_iff₀ (by positivity) (by positivity)]
      have h5 : ((k : ℝ) + p0) ^ 2 ≤ (k + p) ^ 2 := pow_le_pow_left₀ (by positivity) (by linarith) 2
      have h6 : g * ((k : ℝ) + 1) - g * (k + p) ≤ g := by nlinarith
      calc (g * ((k : ℝ) + 1) - g * (k + p)) * (g * ((k : ℝ) + p0) ^ 2) ≤ g * (g * ((k : ℝ) + p0) ^ 2) :=
            mul_le_mul_of_nonneg_right h6 (by positivity)
        _ ≤ 1 * (g * (k + p)) ^ 2 := by nlinarith [mul_le_mul_of_nonneg_left h5 (sq_nonneg g)]
    rw [Real.norm_eq_abs]
    rw [abs_le] at h1 h2 ⊢
    constructor <;> linarith [h1.1, h1.2, h2.1, h2.2]
  have hbs : HasSum (fun k : ℕ => 16 / g * (g / ((1 + g * k) * (1 + g * (k + 1)))) + 1 / g * (1 / ((k : ℝ) + p0) ^ 2))
      (16 / g * 1 + 1 / g * S) := ((tele_sum hg).mul_left _).add (hS.hasSum.mul_left _)
  have hz : HasSum (fun k : ℕ => 1 / (g * ((k : ℝ) + p)) ^ 3) (Nearfield.zeta3 p / g ^ 3) := by
    have h := (zeta_summable hpp).hasSum.div_const (g ^ 3)
    exact h.congr_fun fun k => by rw [mul_pow, div_div, mul_comm]
  have hd := Summable.of_norm_bounded hbs.summable hb
  have hsum : HasSum (fun k : ℕ => 1 / Real.sinh (g * (k + p)) ^ 3)
      ((∑' k : ℕ, (1 / Real.sinh (g * (k + p)) ^ 3 - 1 / (g * (k + p)) ^ 3
      + Real.exp (-(g * ((k : ℝ) + 1))) / (2 * (g * ((k : ℝ) + 1))))) + Nearfield.zeta3 p / g ^ 3
        - -Real.log (1 - Real.exp (-g)) / (2 * g)) :=
    ((hd.hasSum.add hz).sub (log_sum hg)).congr_fun fun k => by ring
  have hle := tsum_of_norm_bounded hbs hb
  rw [hsum.tsum_eq]
  have hl := log_near hg hg1
  have hl' : |(Real.log (1 - Real.exp (-g)) - Real.log g) / (2 * g)| ≤ 1 / g := by
    rw [abs_div, abs_of_pos (by positivity : 0 < 2 * g), div_le_div_iff₀ (by positivity) hg]
    nlinarith
  rw [Real.norm_eq_abs] at hle
  have e : ∀ A : ℝ, A + Nearfield.zeta3 p / g ^ 3 - -Real.log (1 - Real.exp (-g)) / (2 * g) - Nearfield.zeta3 p / g ^ 3
      - Real.log g / (2 * g) = A + (Real.log (1 - Real.exp (-g)) - Real.log g) / (2 * g) := fun A => by ring
  rw [e, show (17 + S) / g = 16 / g * 1 + 1 / g * S + 1 / g from by ring]
  exact (abs_add_le _ _).trans (add_le_add hle hl')

end SD.Twist
