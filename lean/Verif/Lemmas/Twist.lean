import Verif.Spec.Twist
import Verif.Lemmas.GapModes
import Mathlib.Analysis.Normed.Group.Tannery
import Mathlib.Analysis.PSeries
import Mathlib.Tactic.Linarith
import Mathlib.Tactic.Positivity
import Mathlib.Tactic.FieldSimp

/-!
# The images of swirls in two spheres
-/

set_option autoImplicit false

namespace SD.Twist

open Spec Filter Topology

/-- The growth of the divisors of the strengths of images. -/
noncomputable def chain (T d : ℝ) : ℕ → ℝ
  | 0 => 1
  | 1 => d
  | k + 2 => T * chain T d (k + 1) - chain T d k

theorem chain_step {T d : ℝ} (hT : 2 ≤ T) (hd : 1 ≤ d) (k : ℕ) :
    1 ≤ chain T d k ∧ d - 1 ≤ chain T d (k + 1) - chain T d k := by
  induction k with
  | zero => simp only [chain]; exact ⟨le_rfl, le_rfl⟩
  | succ k ih =>
    obtain ⟨h1, h2⟩ := ih
    have h3 : 1 ≤ chain T d (k + 1) := by linarith
    refine ⟨h3, ?_⟩
    rw [show chain T d (k + 1 + 1) = T * chain T d (k + 1) - chain T d k from by rw [chain]]
    nlinarith

theorem chain_ge {T d : ℝ} (hT : 2 ≤ T) (hd : 1 ≤ d) (k : ℕ) : 1 + k * (d - 1) ≤ chain T d k := by
  induction k with
  | zero => simp [chain]
  | succ k ih => push_cast; linarith [(chain_step hT hd k).2]

theorem chain_two (d : ℝ) (k : ℕ) : chain 2 d k = 1 + k * (d - 1) := by
  induction k using Nat.twoStepInduction with
  | zero => simp [chain]
  | one => simp [chain]
  | more k h1 h2 => rw [chain, h1, h2]; push_cast; ring

theorem chain_tendsto {T d : ℝ → ℝ} {l : Filter ℝ} {t e : ℝ} (hT : Tendsto T l (𝓝 t)) (hd : Tendsto d l (𝓝 e)) (k : ℕ) :
    Tendsto (fun r => chain (T r) (d r) k) l (𝓝 (chain t e k)) := by
  induction k using Nat.twoStepInduction with
  | zero => simp only [chain]; exact tendsto_const_nhds
  | one => simpa only [chain] using hd
  | more k h1 h2 => simp only [chain]; exact (hT.mul h2).sub h1

/-- The ratio of divisors. -/
noncomputable def ratio (a b r x : ℝ) : ℝ := (r * (r - x) - b ^ 2) / (a * b)

variable {a b r : ℝ}

theorem ratio_pos (ha : 0 < a) (hb : 0 < b) (hr : a + b < r) {x : ℝ} (hx : x < a) : 0 < ratio a b r x := by
  unfold ratio
  refine div_pos ?_ (by positivity)
  nlinarith

theorem back_offset (hb : 0 < b) (hr : a + b < r) (ha : 0 < a) {q : Rotlet} (h1 : q.offset < a) :
    0 ≤ (q.back a b r).offset ∧ (q.back a b r).offset ≤ a ^ 2 / (r - b) ∧ (q.back a b r).offset < a := by
  simp only [Rotlet.back, Rotlet.image]
  have h2 : 0 < r - q.offset := by linarith
  have h3 : b ^ 2 / (r - q.offset) < b := by rw [div_lt_iff₀ h2]; nlinarith
  have h4 : 0 < r - b ^ 2 / (r - q.offset) := by linarith
  refine ⟨by positivity, ?_, ?_⟩
  · exact div_le_div_of_nonneg_left (by positivity) (by linarith) (by linarith)
  · rw [div_lt_iff₀ h4]; nlinarith

theorem back_strength (ha : 0 < a) (hb : 0 < b) (hr : a + b < r) {q : Rotlet} (h1 : q.offset < a) :
    (q.back a b r).strength = q.strength / ratio a b r q.offset ^ 3 := by
  have h0 := ratio_pos ha hb hr h1
  simp only [Rotlet.back, Rotlet.image]
  have h2 : r - q.offset ≠ 0 := by linarith
  have h4 : r - b ^ 2 / (r - q.offset) = a * b * ratio a b r q.offset / (r - q.offset) := by
    unfold ratio; field_simp
  rw [h4]
  have := h0.ne'
  field_simp

theorem back_ratio (ha : 0 < a) (hb : 0 < b) (hr : a + b < r) {q : Rotlet} (h1 : q.offset < a) :
    ratio a b r (q.back a b r).offset = (r ^ 2 - a ^ 2 - b ^ 2) / (a * b) - 1 / ratio a b r q.offset := by
  have h0 := ratio_pos ha hb hr h1
  have h2 : r - q.offset ≠ 0 := by linarith
  have h4 : r - b ^ 2 / (r - q.offset) = a * b * ratio a b r q.offset / (r - q.offset) := by
    unfold ratio; field_simp
  have h5 : r * (r - q.offset) = a * b * ratio a b r q.offset + b ^ 2 := by unfold ratio; field_simp; ring
  have e : r * (q.back a b r).offset = a ^ 2 + a * b / ratio a b r q.offset := by
    simp only [Rotlet.back, Rotlet.image]
    rw [h4]
    have := h0.ne'
    field_simp
    linear_combination h5
  have e' : ratio a b r (q.back a b r).offset = (r ^ 2 - r * (q.back a b r).offset - b ^ 2) / (a * b) := by
    unfold ratio; ring
  rw [e', e]
  have := h0.ne'
  field_simp
  ring

theorem iter_spec (ha : 0 < a) (hb : 0 < b) (hr : a + b < r) {q : Rotlet} (h1 : q.offset < a) (k : ℕ) :
    ((Rotlet.back a b r)^[k] q).offset < a ∧
    ((Rotlet.back a b r)^[k] q).strength
      = q.strength / chain ((r ^ 2 - a ^ 2 - b ^ 2) / (a * b)) (ratio a b r q.offset) k ^ 3 ∧
    0 < chain ((r ^ 2 - a ^ 2 - b ^ 2) / (a * b)) (ratio a b r q.offset) k ∧
    chain ((r ^ 2 - a ^ 2 - b ^ 2) / (a * b)) (ratio a b r q.offset) (k + 1)
      = ratio a b r ((Rotlet.back a b r)^[k] q).offset * chain ((r ^ 2 - a ^ 2 - b ^ 2) / (a * b)) (ratio a b r q.offset) k := by
  induction k with
  | zero => simp [chain, h1]
  | succ k ih =>
    obtain ⟨i1, i2, i3, i4⟩ := ih
    rw [Function.iterate_succ_apply']
    set c := chain ((r ^ 2 - a ^ 2 - b ^ 2) / (a * b)) (ratio a b r q.offset) with hc
    have h0 := ratio_pos ha hb hr i1
    have i5 : 0 < c (k + 1) := by rw [i4]; positivity
    refine ⟨(back_offset hb hr ha i1).2.2, ?_, i5, ?_⟩
    · rw [back_strength ha hb hr i1, i2, i4]
      have := h0.ne'
      have := i3.ne'
      field_simp
    · rw [back_ratio ha hb hr i1]
      have e : c (k + 1 + 1) = (r ^ 2 - a ^ 2 - b ^ 2) / (a * b) * c (k + 1) - c k := by rw [hc, chain]
      rw [e, sub_mul]
      congr 1
      rw [i4]
      have := h0.ne'
      field_simp

theorem T_ge (ha : 0 < a) (hb : 0 < b) (hr : a + b < r) : 2 ≤ (r ^ 2 - a ^ 2 - b ^ 2) / (a * b) := by
  rw [le_div_iff₀ (by positivity)]; nlinarith

theorem own_ratio_ge (ha : 0 < a) (hb : 0 < b) (hr : a + b < r) : (a + b) / b ≤ ratio a b r 0 - 1 := by
  unfold ratio
  rw [sub_zero, div_le_iff₀ hb, sub_mul, div_mul_eq_mul_div, le_sub_iff_add_le, le_div_iff₀ (by positivity)]
  have h : a ^ 2 + 2 * a * b ≤ r * r - b ^ 2 := by nlinarith
  nlinarith [mul_le_mul_of_nonneg_right h hb.le]

theorem cube_summable {c : ℝ} (hc : 0 < c) : Summable fun k : ℕ => 1 / (1 + (k : ℝ) * c) ^ 3 := by
  have h := (summable_nat_add_iff 1).2 (Real.summable_one_div_nat_pow.2 (by norm_num : 1 < 3))
  refine (h.mul_left (1 / (min 1 c) ^ 3)).of_nonneg_of_le (fun k => by positivity) fun k => ?_
  have hm : 0 < min 1 c := lt_min one_pos hc
  rw [one_div_mul_one_div, ← mul_pow]
  refine one_div_le_one_div_of_le (by positivity) (pow_le_pow_left₀ (by positivity) ?_ 3)
  push_cast
  have := min_le_left 1 c
  have := min_le_right 1 c
  nlinarith [Nat.cast_nonneg (α := ℝ) k]

theorem inv_chain_le {T d c : ℝ} (hT : 2 ≤ T) (hc : 0 < c) (hd : c ≤ d - 1) (k : ℕ) :
    0 < chain T d k ∧ 1 / chain T d k ^ 3 ≤ 1 / (1 + (k : ℝ) * c) ^ 3 := by
  have h1 := chain_ge hT (by linarith : 1 ≤ d) k
  have h2 : 1 + (k : ℝ) * c ≤ chain T d k := by nlinarith [Nat.cast_nonneg (α := ℝ) k]
  have h3 : 0 < 1 + (k : ℝ) * c := by positivity
  exact ⟨by linarith, one_div_le_one_div_of_le (by positivity) (pow_le_pow_left₀ h3.le h2 3)⟩

/-- The limit of the sums at contact. -/
theorem sum_tendsto {T d : ℝ → ℝ} {l : Filter ℝ} {c : ℝ} (hc : 0 < c) (hT : Tendsto T l (𝓝 2)) (hd : Tendsto d l (𝓝 (1 + c)))
    (hT2 : ∀ᶠ x in l, 2 ≤ T x) (hdc : ∀ᶠ x in l, c ≤ d x - 1) :
    Tendsto (fun x => ∑' k, 1 / chain (T x) (d x) k ^ 3) l (𝓝 (∑' k : ℕ, 1 / (1 + (k : ℝ) * c) ^ 3)) := by
  refine tendsto_tsum_of_dominated_convergence (cube_summable hc) (fun k => ?_) ?_
  · have h := chain_tendsto hT hd k
    rw [chain_two, add_sub_cancel_left] at h
    exact tendsto_const_nhds.div (h.pow 3) (by positivity)
  · filter_upwards [hT2, hdc] with x h1 h2 k
    obtain ⟨h3, h4⟩ := inv_chain_le h1 hc h2 k
    rw [Real.norm_eq_abs, abs_of_nonneg (by positivity)]
    exact h4

theorem zeta_sum {c : ℝ} (hc : 0 < c) : ∑' k : ℕ, 1 / (1 + (k : ℝ) * c) ^ 3 = c⁻¹ ^ 3 * Nearfield.zeta3 c⁻¹ := by
  unfold Nearfield.zeta3
  rw [← tsum_mul_left]
  refine tsum_congr fun k => ?_
  have : 0 < (k : ℝ) + c⁻¹ := by positivity
  have : 0 < 1 + (k : ℝ) * c := by positivity
  rw [show 1 + (k : ℝ) * c = c * (k + c⁻¹) from by field_simp; ring]
  field_simp

end SD.Twist
