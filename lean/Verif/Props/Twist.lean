import Verif.Lemmas.TwistGap
import Verif.Lemmas.SwirlTorque
import Verif.Lemmas.SwirlUnique
import Mathlib.Analysis.Normed.Group.FunctionSeries
import Mathlib.Analysis.SpecialFunctions.Log.NegMulLog

/-!
# Spheres turning about their line of centres: the near-field functions and the exact flow

The code has closed expressions for the torques on two nearly touching spheres that turn about the line of centres. Here they
are compared with the exact torques.
-/

set_option autoImplicit false

namespace SD

open Spec Twist Filter Topology Asymptotics

/-! ## Lemmas -/

section

variable {a b r : ℝ}

theorem own_spec (ha : 0 < a) (hb : 0 < b) (hr : a + b < r) (k : ℕ) :
    (ownImages a b r k).strength = a ^ 3 * (1 / chain ((r ^ 2 - a ^ 2 - b ^ 2) / (a * b)) (ratio a b r 0) k ^ 3) := by
  unfold ownImages
  rw [(iter_spec ha hb hr (q := ⟨a ^ 3, 0⟩) ha k).2.1]
  ring

theorem own_offset (ha : 0 < a) (hb : 0 < b) (hr : a + b < r) (k : ℕ) :
    0 ≤ (ownImages a b r k).offset ∧ (ownImages a b r k).offset ≤ a ^ 2 / (r - b) := by
  cases k with
  | zero =>
    refine ⟨le_rfl, ?_⟩
    have : 0 < r - b := by linarith
    simp only [ownImages, Function.iterate_zero, id]
    positivity
  | succ k =>
    unfold ownImages
    rw [Function.iterate_succ_apply']
    have h := back_offset hb hr ha (iter_spec ha hb hr (q := ⟨a ^ 3, 0⟩) ha k).1
    exact ⟨h.1, h.2.1⟩

theorem edge_lt (ha : 0 < a) (hr : a + b < r) : a ^ 2 / (r - b) < a := by
  rw [div_lt_iff₀ (by linarith)]; nlinarith

theorem own_bound (ha : 0 < a) (hb : 0 < b) (hr : a + b < r) (k : ℕ) :
    0 < (ownImages a b r k).strength ∧ (ownImages a b r k).strength ≤ a ^ 3 * (1 / (1 + (k : ℝ) * ((a + b) / b)) ^ 3) := by
  obtain ⟨h1, h2⟩ := inv_chain_le (T_ge ha hb hr) (by positivity : 0 < (a + b) / b) (own_ratio_ge ha hb hr) k
  rw [own_spec ha hb hr]
  exact ⟨by positivity, mul_le_mul_of_nonneg_left h2 (by positivity)⟩

theorem own_summable (ha : 0 < a) (hb : 0 < b) (hr : a + b < r) : Summable fun k => (ownImages a b r k).strength :=
  ((cube_summable (by positivity : 0 < (a + b) / b)).mul_left (a ^ 3)).of_nonneg_of_le
    (fun k => (own_bound ha hb hr k).1.le) fun k => (own_bound ha hb hr k).2

theorem far_offset (ha : 0 < a) (hb : 0 < b) (hr : a + b < r) (k : ℕ) :
    0 < (farImages a b r k).offset ∧ (farImages a b r k).offset ≤ b ^ 2 / (r - a) := by
  have h1 := own_offset ha hb hr k
  have h2 := edge_lt ha hr
  simp only [farImages, Rotlet.image]
  have : 0 < r - (ownImages a b r k).offset := by linarith
  exact ⟨by positivity, div_le_div_of_nonneg_left (by positivity) (by linarith) (by linarith)⟩

theorem far_bound (ha : 0 < a) (hb : 0 < b) (hr : a + b < r) (k : ℕ) :
    (farImages a b r k).strength < 0 ∧ |(farImages a b r k).strength| ≤ (ownImages a b r k).strength := by
  have h1 := own_offset ha hb hr k
  have h2 := edge_lt ha hr
  have h3 := (own_bound ha hb hr k).1
  simp only [farImages, Rotlet.image]
  have h4 : 0 < r - (ownImages a b r k).offset := by linarith
  have h5 : b / (r - (ownImages a b r k).offset) ≤ 1 := by rw [div_le_one h4]; linarith
  have h6 : 0 < b / (r - (ownImages a b r k).offset) := by positivity
  have h7 : (b / (r - (ownImages a b r k).offset)) ^ 3 ≤ 1 := pow_le_one₀ h6.le h5
  have h8 : 0 < (b / (r - (ownImages a b r k).offset)) ^ 3 := by positivity
  constructor
  · nlinarith
  · rw [abs_mul, abs_neg, abs_of_pos h3, abs_of_pos h8]
    exact mul_le_of_le_one_right h3.le h7

theorem far_summable (ha : 0 < a) (hb : 0 < b) (hr : a + b < r) : Summable fun k => (farImages a b r k).strength :=
  Summable.of_norm_bounded (own_summable ha hb hr) fun k => (far_bound ha hb hr k).2

theorem spin_le {s z h w d : ℝ} (hd : 0 < d) (hz : d ^ 2 ≤ h ^ 2 + (w - z) ^ 2) : ‖whirl s z h w‖ ≤ |s| / d ^ 3 := by
  unfold whirl
  rw [Real.norm_eq_abs, abs_div]
  have e : d ^ 3 ≤ (h ^ 2 + (w - z) ^ 2) ^ (3 / 2 : ℝ) := by
    have := Real.rpow_le_rpow (by positivity) hz (by norm_num : (0 : ℝ) ≤ 3 / 2)
    rwa [← Real.rpow_natCast, ← Real.rpow_mul hd.le, show ((2 : ℕ) : ℝ) * (3 / 2) = ((3 : ℕ) : ℝ) from by norm_num,
      Real.rpow_natCast] at this
  rw [abs_of_nonneg ((by positivity : (0 : ℝ) ≤ d ^ 3).trans e)]
  exact div_le_div_of_nonneg_left (abs_nonneg _) (by positivity) e

theorem far_away {rho x h w : ℝ} (hx : 0 ≤ x) (hxr : x ≤ rho) (hp : rho ^ 2 ≤ h ^ 2 + w ^ 2) :
    (rho - x) ^ 2 ≤ h ^ 2 + (w - x) ^ 2 := by
  have h1 : w ≤ √(h ^ 2 + w ^ 2) := Real.le_sqrt_of_sq_le (by nlinarith [sq_nonneg h])
  have h2 := Real.sq_sqrt (by positivity : 0 ≤ h ^ 2 + w ^ 2)
  have h3 : rho ≤ √(h ^ 2 + w ^ 2) := Real.le_sqrt_of_sq_le hp
  nlinarith

theorem spin_image {rho p h v s : ℝ} (hrho : 0 < rho) (hp : 0 < p) (hv : h ^ 2 + v ^ 2 = rho ^ 2) :
    whirl s p h v + whirl (-s * (rho / p) ^ 3) (rho ^ 2 / p) h v = 0 := by
  unfold whirl
  have e : h ^ 2 + (v - rho ^ 2 / p) ^ 2 = (rho / p) ^ 2 * (h ^ 2 + (v - p) ^ 2) := by
    have : h ^ 2 = rho ^ 2 - v ^ 2 := by linarith
    rw [this]
    field_simp
    ring
  have e3 : ((rho / p) ^ 2) ^ (3 / 2 : ℝ) = (rho / p) ^ 3 := by
    rw [← Real.rpow_natCast, ← Real.rpow_mul (by positivity), show ((2 : ℕ) : ℝ) * (3 / 2) = ((3 : ℕ) : ℝ) from by norm_num,
      Real.rpow_natCast]
  rw [e, Real.mul_rpow (by positivity) (by positivity), e3]
  have : (rho / p) ^ 3 ≠ 0 := by positivity
  rw [neg_mul, mul_comm, neg_div, mul_div_mul_left _ _ this, add_neg_cancel]

theorem spin_cancel_far (ha : 0 < a) (hb : 0 < b) (hr : a + b < r) {h w : ℝ} (hw : h ^ 2 + (w - r) ^ 2 = b ^ 2) (k : ℕ) :
    spinBoth a b r h w k = 0 := by
  have h1 := own_offset ha hb hr k
  have h2 := edge_lt ha hr
  have h3 := spin_image (s := (ownImages a b r k).strength) (p := r - (ownImages a b r k).offset) (h := h) (v := r - w) hb
    (by linarith) (by rw [← hw]; ring)
  unfold spinBoth
  rw [← h3]
  simp only [farImages, Rotlet.image, whirl]
  ring_nf

theorem spin_cancel_own (ha : 0 < a) (hb : 0 < b) (hr : a + b < r) {h w : ℝ} (hw : h ^ 2 + w ^ 2 = a ^ 2) (k : ℕ) :
    whirl (ownImages a b r (k + 1)).strength (ownImages a b r (k + 1)).offset h w
      = -whirl (farImages a b r k).strength (r - (farImages a b r k).offset) h w := by
  have h1 := far_offset ha hb hr k
  have h2 : b ^ 2 / (r - a) < b := edge_lt hb (by linarith)
  have h3 := spin_image (s := (farImages a b r k).strength) (p := r - (farImages a b r k).offset) (h := h) (v := w) ha
    (by linarith) hw
  have e : ownImages a b r (k + 1) = (farImages a b r k).image a r := by
    unfold ownImages farImages
    rw [Function.iterate_succ_apply', Rotlet.back]
    rfl
  rw [e]
  simp only [Rotlet.image]
  linarith

theorem spin_own_start (ha : 0 < a) {h w : ℝ} (hw : h ^ 2 + w ^ 2 = a ^ 2) :
    whirl (ownImages a b r 0).strength (ownImages a b r 0).offset h w = 1 := by
  simp only [ownImages, Function.iterate_zero, id, whirl, sub_zero, hw]
  rw [← Real.rpow_natCast a 2, ← Real.rpow_mul ha.le, show ((2 : ℕ) : ℝ) * (3 / 2) = ((3 : ℕ) : ℝ) from by norm_num,
    Real.rpow_natCast, div_self (by positivity)]

theorem spin_summable (ha : 0 < a) (hb : 0 < b) (hr : a + b < r) {h w : ℝ} (h1 : a ^ 2 ≤ h ^ 2 + w ^ 2)
    (h2 : b ^ 2 ≤ h ^ 2 + (w - r) ^ 2) :
    (Summable fun k => whirl (ownImages a b r k).strength (ownImages a b r k).offset h w) ∧
    Summable fun k => whirl (farImages a b r k).strength (r - (farImages a b r k).offset) h w := by
  have e1 := edge_lt (b := b) ha hr
  have e2 : b ^ 2 / (r - a) < b := edge_lt hb (by linarith)
  constructor
  · refine Summable.of_norm_bounded ((own_summable ha hb hr).div_const ((a - a ^ 2 / (r - b)) ^ 3)) fun k => ?_
    obtain ⟨h3, h4⟩ := own_offset ha hb hr k
    have h5 := far_away h3 (by linarith) h1
    have h6 := spin_le (s := (ownImages a b r k).strength) (d := a - a ^ 2 / (r - b)) (by linarith)
      (le_trans (pow_le_pow_left₀ (by linarith) (by linarith) 2) h5)
    rwa [abs_of_pos (own_bound ha hb hr k).1] at h6
  · refine Summable.of_norm_bounded ((own_summable ha hb hr).div_const ((b - b ^ 2 / (r - a)) ^ 3)) fun k => ?_
    obtain ⟨h3, h4⟩ := far_offset ha hb hr k
    have h5 := far_away (rho := b) (h := h) (w := r - w) h3.le (by linarith) (h2.trans_eq (by ring))
    have h6 := spin_le (s := (farImages a b r k).strength) (z := r - (farImages a b r k).offset) (w := w) (h := h)
      (d := b - b ^ 2 / (r - a)) (by linarith)
      (le_trans (pow_le_pow_left₀ (by linarith) (by linarith) 2) (h5.trans_eq (by ring)))
    exact h6.trans (div_le_div_of_nonneg_right (far_bound ha hb hr k).2 (pow_nonneg (by linarith) _))

theorem swirls_apart (ha : 0 < a) (hb : 0 < b) (hr : a + b < r) {x y w : ℝ} (h1 : a ^ 2 ≤ x ^ 2 + y ^ 2 + w ^ 2)
    (h2 : b ^ 2 ≤ x ^ 2 + y ^ 2 + (w - r) ^ 2) (k : ℕ ⊕ ℕ) :
    min (a - a ^ 2 / (r - b)) (b - b ^ 2 / (r - a)) ^ 2 ≤ x ^ 2 + y ^ 2 + (w - (allImages a b r k).offset) ^ 2 := by
  have e1 := edge_lt (b := b) ha hr
  have e2 : b ^ 2 / (r - a) < b := edge_lt hb (by linarith)
  have e0 : 0 ≤ min (a - a ^ 2 / (r - b)) (b - b ^ 2 / (r - a)) := le_min (by linarith) (by linarith)
  have hh := Real.sq_sqrt (by positivity : 0 ≤ x ^ 2 + y ^ 2)
  cases k with
  | inl k =>
    obtain ⟨h3, h4⟩ := own_offset ha hb hr k
    have h5 := far_away (rho := a) (h := √(x ^ 2 + y ^ 2)) (w := w) h3 (by linarith) (h1.trans_eq (by rw [hh]))
    rw [hh] at h5
    exact (pow_le_pow_left₀ e0 ((min_le_left _ _).trans (by linarith)) 2).trans h5
  | inr k =>
    obtain ⟨h3, h4⟩ := far_offset ha hb hr k
    have h5 := far_away (rho := b) (h := √(x ^ 2 + y ^ 2)) (w := r - w) h3.le (by linarith) (h2.trans_eq (by rw [hh]; ring))
    rw [hh] at h5
    exact (pow_le_pow_left₀ e0 ((min_le_right _ _).trans (by linarith)) 2).trans (h5.trans_eq (by simp only [allImages]; ring))

theorem swirls_summable (ha : 0 < a) (hb : 0 < b) (hr : a + b < r) : Summable fun k => |(allImages a b r k).strength| :=
  Summable.sum _ (own_summable ha hb hr).abs (far_summable ha hb hr).abs

theorem swirls_inside (ha : 0 < a) (hb : 0 < b) (hr : a + b < r) (k : ℕ ⊕ ℕ) : |(allImages a b r k).offset| ≤ r := by
  have e1 := edge_lt (b := b) ha hr
  have e2 : b ^ 2 / (r - a) < b := edge_lt hb (by linarith)
  cases k with
  | inl k =>
    obtain ⟨h3, h4⟩ := own_offset ha hb hr k
    exact abs_le.2 ⟨by change _ ≤ (ownImages a b r k).offset; linarith, by change (ownImages a b r k).offset ≤ _; linarith⟩
  | inr k =>
    obtain ⟨h3, h4⟩ := far_offset ha hb hr k
    exact abs_le.2 ⟨by change _ ≤ r - (farImages a b r k).offset; linarith,
      by change r - (farImages a b r k).offset ≤ _; linarith⟩

theorem turning_sum (ha : 0 < a) (hb : 0 < b) (hr : a + b < r) {x y w : ℝ} (h1 : a ^ 2 ≤ x ^ 2 + y ^ 2 + w ^ 2)
    (h2 : b ^ 2 ≤ x ^ 2 + y ^ 2 + (w - r) ^ 2) {v : ℝ} (hv : HasSum (spinBoth a b r √(x ^ 2 + y ^ 2) w) v) :
    turningFlow a b r x y w = ![-v * y, v * x, 0] := by
  have hh := Real.sq_sqrt (by positivity : 0 ≤ x ^ 2 + y ^ 2)
  obtain ⟨s1, s2⟩ := spin_summable ha hb hr (h := √(x ^ 2 + y ^ 2)) (w := w) (by rwa [hh]) (by rwa [hh])
  have e : HasSum (fun k => whirl (allImages a b r k).strength (allImages a b r k).offset √(x ^ 2 + y ^ 2) w) v := by
    have hs : HasSum (spinBoth a b r √(x ^ 2 + y ^ 2) w) _ := s1.hasSum.add s2.hasSum
    rw [hv.unique hs]
    exact HasSum.sum s1.hasSum s2.hasSum
  funext i
  unfold turningFlow
  fin_cases i
  · exact (e.neg.mul_right y).tsum_eq
  · exact (e.mul_right x).tsum_eq
  · simp [swirlFlow]

theorem swirl_far {s z x y w : ℝ} (hr : 0 < r) (hz : |z| ≤ r) (h : (2 * r) ^ 2 ≤ x ^ 2 + y ^ 2 + w ^ 2) (i : Fin 3) :
    |swirlFlow s z x y w i| ≤ |s| * (8 / (x ^ 2 + y ^ 2 + w ^ 2)) := by
  obtain ⟨p, hp⟩ : ∃ p, p = √(x ^ 2 + y ^ 2 + w ^ 2) := ⟨_, rfl⟩
  have hp2 : p ^ 2 = x ^ 2 + y ^ 2 + w ^ 2 := by rw [hp, Real.sq_sqrt (by positivity)]
  have hpr : 2 * r ≤ p := by rw [hp]; exact Real.le_sqrt_of_sq_le h
  have hp0 : 0 < p := by linarith
  have hwp : |w| ≤ p := by rw [hp]; exact Real.abs_le_sqrt (by nlinarith [sq_nonneg x, sq_nonneg y])
  have hxp : |x| ≤ p := by rw [hp]; exact Real.abs_le_sqrt (by nlinarith [sq_nonneg w, sq_nonneg y])
  have hyp : |y| ≤ p := by rw [hp]; exact Real.abs_le_sqrt (by nlinarith [sq_nonneg w, sq_nonneg x])
  have hwz : w * z ≤ p * |z| := (le_abs_self _).trans (by rw [abs_mul]; exact mul_le_mul_of_nonneg_right hwp (abs_nonneg z))
  have hz2 := sq_abs z
  have hd : (p / 2) ^ 2 ≤ √(x ^ 2 + y ^ 2) ^ 2 + (w - z) ^ 2 := by
    rw [Real.sq_sqrt (by positivity)]
    have : p / 2 ≤ p - |z| := by linarith
    have := pow_le_pow_left₀ (by positivity) this 2
    nlinarith
  have hs := spin_le (s := s) (by positivity : 0 < p / 2) hd
  rw [Real.norm_eq_abs] at hs
  have key : ∀ v, |v| ≤ p → |whirl s z √(x ^ 2 + y ^ 2) w * v| ≤ |s| * (8 / (x ^ 2 + y ^ 2 + w ^ 2)) := fun v hv => by
    rw [abs_mul, ← hp2]
    refine (mul_le_mul hs hv (abs_nonneg v) (by positivity)).trans_eq ?_
    field_simp
    norm_num
  fin_cases i
  · have := key y hyp
    simp only [swirlFlow, Fin.zero_eta, Matrix.cons_val_zero, neg_mul, abs_neg]
    exact this
  · exact key x hxp
  · simp only [swirlFlow, Fin.reduceFinMk, Matrix.cons_val, abs_zero]
    positivity

theorem turning_continuous (ha : 0 < a) (hb : 0 < b) (hr : a + b < r) (i : Fin 3) :
    ContinuousOn (fun p : ℝ × ℝ × ℝ => turningFlow a b r p.1 p.2.1 p.2.2 i) {p | NotInside a b r p.1 p.2.1 p.2.2} := by
  have e1 := edge_lt (b := b) ha hr
  have e2 : b ^ 2 / (r - a) < b := edge_lt hb (by linarith)
  obtain ⟨d, hd⟩ : ∃ d, d = min (a - a ^ 2 / (r - b)) (b - b ^ 2 / (r - a)) := ⟨_, rfl⟩
  have hd0 : 0 < d := by rw [hd]; exact lt_min (by linarith) (by linarith)
  have hap : ∀ k, ∀ p ∈ {p : ℝ × ℝ × ℝ | NotInside a b r p.1 p.2.1 p.2.2},
      d ^ 2 ≤ p.1 ^ 2 + p.2.1 ^ 2 + (p.2.2 - (allImages a b r k).offset) ^ 2 := fun k p hp => by
    rw [hd]; exact swirls_apart ha hb hr hp.1 hp.2 k
  have hw : ∀ k, ContinuousOn (fun p : ℝ × ℝ × ℝ =>
      whirl (allImages a b r k).strength (allImages a b r k).offset √(p.1 ^ 2 + p.2.1 ^ 2) p.2.2)
      {p | NotInside a b r p.1 p.2.1 p.2.2} := fun k => by
    simp only [whirl_pw]
    refine continuousOn_const.mul (ContinuousOn.rpow_const (by fun_prop) fun p hp => Or.inl ?_)
    exact (lt_of_lt_of_le (by positivity) (hap k p hp)).ne'
  have key : ∀ k, ∀ p ∈ {p : ℝ × ℝ × ℝ | NotInside a b r p.1 p.2.1 p.2.2}, ∀ v,
      v ^ 2 ≤ p.1 ^ 2 + p.2.1 ^ 2 + (p.2.2 - (allImages a b r k).offset) ^ 2 →
      |whirl (allImages a b r k).strength (allImages a b r k).offset √(p.1 ^ 2 + p.2.1 ^ 2) p.2.2 * v|
        ≤ |(allImages a b r k).strength| * (1 / d ^ 2) := fun k p hp v hv => by
    obtain ⟨N, hN⟩ : ∃ N, N = √(p.1 ^ 2 + p.2.1 ^ 2 + (p.2.2 - (allImages a b r k).offset) ^ 2) := ⟨_, rfl⟩
    have hN2 : N ^ 2 = p.1 ^ 2 + p.2.1 ^ 2 + (p.2.2 - (allImages a b r k).offset) ^ 2 := by
      rw [hN, Real.sq_sqrt (by positivity)]
    have hdN : d ≤ N := by rw [hN]; exact Real.le_sqrt_of_sq_le (hap k p hp)
    have hvN : |v| ≤ N := by rw [hN]; exact Real.abs_le_sqrt hv
    have hN0 : 0 < N := by linarith
    have h1 := spin_le (s := (allImages a b r k).strength) (z := (allImages a b r k).offset) (h := √(p.1 ^ 2 + p.2.1 ^ 2))
      (w := p.2.2) hN0 (by rw [Real.sq_sqrt (by positivity), hN2])
    rw [Real.norm_eq_abs] at h1
    rw [abs_mul]
    calc _ ≤ |(allImages a b r k).strength| / N ^ 3 * N := mul_le_mul h1 hvN (abs_nonneg v) (by positivity)
      _ = |(allImages a b r k).strength| * (1 / N ^ 2) := by field_simp
      _ ≤ _ := by gcongr
  refine continuousOn_tsum (fun k => ?_) ((swirls_summable ha hb hr).mul_right (1 / d ^ 2)) fun k p hp => ?_
  · fin_cases i
    · exact (hw k).neg.mul (by fun_prop)
    · exact (hw k).mul (by fun_prop)
    · exact continuousOn_const
  · rw [Real.norm_eq_abs]
    fin_cases i
    · have := key k p hp p.2.1 (by nlinarith [sq_nonneg p.1, sq_nonneg (p.2.2 - (allImages a b r k).offset)])
      simp only [swirlFlow, Fin.zero_eta, Matrix.cons_val_zero, neg_mul, abs_neg]
      exact this
    · exact key k p hp p.1 (by nlinarith [sq_nonneg p.2.1, sq_nonneg (p.2.2 - (allImages a b r k).offset)])
    · simp only [swirlFlow, Fin.reduceFinMk, Matrix.cons_val, abs_zero]
      positivity

theorem far_iter (k : ℕ) : farImages b a r k = (Rotlet.back a b r)^[k] ((⟨b ^ 3, 0⟩ : Rotlet).image a r) := by
  unfold farImages ownImages
  have h : Function.Semiconj (Rotlet.image a r) (Rotlet.back b a r) (Rotlet.back a b r) := fun q => rfl
  exact (h.iterate_right k).eq _

theorem far_spec (ha : 0 < a) (hb : 0 < b) (hr : a + b < r) (k : ℕ) : (farImages b a r k).strength
    = -(a * b / r) ^ 3 * (1 / chain ((r ^ 2 - a ^ 2 - b ^ 2) / (a * b)) ((r ^ 2 - a ^ 2 - b ^ 2) / (a * b)) k ^ 3) := by
  have hr0 : 0 < r := by linarith
  have h0 : ((⟨b ^ 3, 0⟩ : Rotlet).image a r).offset < a := by
    simp only [Rotlet.image, sub_zero]
    rw [div_lt_iff₀ hr0]; nlinarith
  rw [far_iter, (iter_spec ha hb hr h0 k).2.1]
  have e : ratio a b r ((⟨b ^ 3, 0⟩ : Rotlet).image a r).offset = (r ^ 2 - a ^ 2 - b ^ 2) / (a * b) := by
    simp only [Rotlet.image, sub_zero, ratio]
    congr 1
    field_simp
  rw [e]
  simp only [Rotlet.image, sub_zero]
  rw [div_eq_mul_one_div]
  congr 1
  field_simp

theorem far_torque (ha : 0 < a) (hb : 0 < b) (hr : a + b < r) : farTorque b a r = -(a * b / r) ^ 3
    * ∑' k, 1 / chain ((r ^ 2 - a ^ 2 - b ^ 2) / (a * b)) ((r ^ 2 - a ^ 2 - b ^ 2) / (a * b)) k ^ 3 := by
  unfold farTorque
  rw [← tsum_mul_left]
  exact tsum_congr fun k => far_spec ha hb hr k

theorem own_torque (ha : 0 < a) (hb : 0 < b) (hr : a + b < r) : ownTorque a b r = a ^ 3
    * ∑' k, 1 / chain ((r ^ 2 - a ^ 2 - b ^ 2) / (a * b)) (ratio a b r 0) k ^ 3 := by
  unfold ownTorque
  rw [← tsum_mul_left]
  exact tsum_congr fun k => own_spec ha hb hr k

theorem near_bound {f X : ℝ → ℝ} (h : f =O[𝓝[>] (a + b)] X) (ha : 0 < a) (hb : 0 < b)
    (hX : X = fun r => 2 * r / (a + b) - 2) :
    ∃ K d, 0 < d ∧ ∀ r, a + b < r → r < a + b + d → |f r| ≤ K * (r - (a + b)) := by
  have hab : 0 < a + b := by positivity
  obtain ⟨K, hK⟩ := h.bound
  obtain ⟨u, hu, hs⟩ := (mem_nhdsGT_iff_exists_Ioo_subset).1 hK
  refine ⟨K * (2 / (a + b)), u - (a + b), sub_pos.2 hu, fun r h1 h2 => ?_⟩
  have h3 : ‖f r‖ ≤ K * ‖X r‖ := hs ⟨h1, by linarith⟩
  have h4 : X r = 2 / (a + b) * (r - (a + b)) := by rw [hX]; field_simp
  have h5 : 0 < 2 / (a + b) * (r - (a + b)) := mul_pos (by positivity) (by linarith)
  rw [h4, Real.norm_eq_abs, Real.norm_eq_abs, abs_of_pos h5] at h3
  linarith

end

/-! ## Theorems -/

/-- **C101** (swirls). A swirl is a Stokes flow without pressure everywhere but where it is. -/
theorem C101_swirl (s z : ℝ) {x y w : ℝ} (h : ¬(x = 0 ∧ y = 0 ∧ w = z)) : FlowsFreely (swirlFlow s z) x y w := by
  have hN : 0 < x ^ 2 + y ^ 2 + (w - z) ^ 2 := by
    by_contra hn
    refine h ⟨?_, ?_, ?_⟩ <;> nlinarith [sq_nonneg x, sq_nonneg y, sq_nonneg (w - z)]
  have hs : ∀ x y w : ℝ, whirl s z √(x ^ 2 + y ^ 2) w = s * (x ^ 2 + y ^ 2 + (w - z) ^ 2) ^ (-3 / 2 : ℝ) := fun x y w => by
    unfold whirl
    rw [Real.sq_sqrt (by positivity), show (-3 / 2 : ℝ) = -(3 / 2) from by norm_num, Real.rpow_neg (by positivity)]
    rfl
  have hx : 0 < x ^ 2 + (y ^ 2 + (w - z) ^ 2) := by linarith
  have hy : 0 < y ^ 2 + (x ^ 2 + (w - z) ^ 2) := by linarith
  have hw : 0 < (w - z) ^ 2 + (x ^ 2 + y ^ 2) := by linarith
  have sx : ∀ t, s * (t ^ 2 + y ^ 2 + (w - z) ^ 2) ^ (-3 / 2 : ℝ) = s * pw (-3 / 2) (y ^ 2 + (w - z) ^ 2) t := fun t => by
    unfold pw; ring_nf
  have sy : ∀ t, s * (x ^ 2 + t ^ 2 + (w - z) ^ 2) ^ (-3 / 2 : ℝ) = s * pw (-3 / 2) (x ^ 2 + (w - z) ^ 2) t := fun t => by
    unfold pw; ring_nf
  have sw : ∀ t, s * (x ^ 2 + y ^ 2 + (t - z) ^ 2) ^ (-3 / 2 : ℝ) = s * pw (-3 / 2) (x ^ 2 + y ^ 2) (t - z) := fun t => by
    unfold pw; ring_nf
  have shift : ∀ (f : ℝ → ℝ), deriv (deriv fun t => f (t - z)) w = deriv (deriv f) (w - z) := fun f => by
    rw [show (deriv fun t => f (t - z)) = fun t => deriv f (t - z) from funext fun t => deriv_comp_sub_const f z t]
    exact deriv_comp_sub_const (deriv f) z w
  have ex : pw (-7 / 2) (x ^ 2 + (w - z) ^ 2) y = pw (-7 / 2) (y ^ 2 + (w - z) ^ 2) x := by unfold pw; ring_nf
  have ew : pw (-7 / 2) (x ^ 2 + y ^ 2) (w - z) = pw (-7 / 2) (y ^ 2 + (w - z) ^ 2) x := by unfold pw; ring_nf
  have c0 : ∀ c t q : ℝ, -(s * pw (-3 / 2) q t) * c = -s * c * pw (-3 / 2) q t := fun c t q => by ring
  have c1 : ∀ c t q : ℝ, s * pw (-3 / 2) q t * c = s * c * pw (-3 / 2) q t := fun c t q => by ring
  have d0 : ∀ t q : ℝ, -s * t * pw (-3 / 2) q t = -s * (t * pw (-3 / 2) q t) := fun t q => by ring
  have d1 : ∀ t q : ℝ, s * t * pw (-3 / 2) q t = s * (t * pw (-3 / 2) q t) := fun t q => by ring
  constructor
  · simp only [swirlFlow, hs, Matrix.cons_val_zero, Matrix.cons_val_one, Matrix.cons_val, sx, sy, c0, c1, deriv_const]
    rw [pw_first _ _ hx, pw_first _ _ hy, pw_down hx, pw_down hy, ex]
    ring
  · intro i
    fin_cases i
    · simp only [swirlFlow, hs, Fin.zero_eta, Matrix.cons_val_zero, sx, sy, sw, c0]
      rw [shift fun t => -s * y * pw (-3 / 2) (x ^ 2 + y ^ 2) t]
      simp only [d0]
      rw [pw_second _ _ hx, pw_second' _ _ hy, pw_second _ _ hw, pw_down hx, pw_down hy, pw_down hw, ex, ew]
      ring
    · simp only [swirlFlow, hs, Fin.mk_one, Matrix.cons_val_one, Matrix.cons_val_zero, sx, sy, sw, c1]
      rw [shift fun t => s * x * pw (-3 / 2) (x ^ 2 + y ^ 2) t]
      simp only [d1]
      rw [pw_second' _ _ hx, pw_second _ _ hy, pw_second _ _ hw, pw_down hx, pw_down hy, pw_down hw, ex, ew]
      ring
    · simp [swirlFlow]

/-- **C101** (strength). The fluid of a swirl holds a sphere around it back with the torque `8 pi mu` times the strength of
the swirl, wherever in the sphere it is, and exerts no torque on a sphere that it is outside of. -/
theorem C101_strength (mu s : ℝ) {z c R : ℝ} (hR : 0 < R) :
    (|z - c| < R → fluidTorque mu (swirlFlow s z) c R = -(8 * Real.pi * mu * s)) ∧
    (R < |z - c| → fluidTorque mu (swirlFlow s z) c R = 0) := by
  refine ⟨fun h => ?_, fun h => ?_⟩
  · rw [swirl_torque mu s hR h.ne', if_pos h]
  · rw [swirl_torque mu s hR h.ne, if_neg h.not_gt]

/-- **C101** (flow). The images of swirls in two separate spheres are all inside the spheres, and add up to the flow around
sphere 1, turning with unit angular velocity, and sphere 2, held: the sum exists everywhere in the fluid, and on the spheres
it has their angular velocities. -/
theorem C101_flow {a b r : ℝ} (ha : 0 < a) (hb : 0 < b) (hr : a + b < r) :
    (∀ k, 0 ≤ (ownImages a b r k).offset ∧ (ownImages a b r k).offset < a ∧
      0 ≤ (farImages a b r k).offset ∧ (farImages a b r k).offset < b) ∧
    (∀ h w, a ^ 2 ≤ h ^ 2 + w ^ 2 → b ^ 2 ≤ h ^ 2 + (w - r) ^ 2 → Summable (spinBoth a b r h w)) ∧
    (∀ h w, h ^ 2 + w ^ 2 = a ^ 2 → HasSum (spinBoth a b r h w) 1) ∧
    (∀ h w, h ^ 2 + (w - r) ^ 2 = b ^ 2 → HasSum (spinBoth a b r h w) 0) := by
  refine ⟨fun k => ?_, fun h w h1 h2 => ?_, fun h w hw => ?_, fun h w hw => ?_⟩
  · have h1 := own_offset ha hb hr k
    have h2 := far_offset ha hb hr k
    exact ⟨h1.1, h1.2.trans_lt (edge_lt ha hr), h2.1.le, h2.2.trans_lt (edge_lt hb (by linarith))⟩
  · have := spin_summable ha hb hr h1 h2
    exact this.1.add this.2
  · have hw' : b ^ 2 ≤ h ^ 2 + (w - r) ^ 2 := by nlinarith [abs_le_of_sq_le_sq' (by nlinarith [sq_nonneg h] : w ^ 2 ≤ a ^ 2) ha.le]
    have hs := spin_summable ha hb hr hw.ge hw'
    have hsum : Summable (spinBoth a b r h w) := hs.1.add hs.2
    refine (hsum.hasSum_iff_tendsto_nat).2 ?_
    have e : ∀ n, ∑ k ∈ Finset.range n, spinBoth a b r h w k
        = 1 - whirl (ownImages a b r n).strength (ownImages a b r n).offset h w := fun n => by
      induction n with
      | zero => rw [Finset.sum_range_zero, spin_own_start ha hw, sub_self]
      | succ n ih => rw [Finset.sum_range_succ, ih, spin_cancel_own ha hb hr hw]; unfold spinBoth; ring
    simp only [e]
    simpa using (tendsto_const_nhds (x := (1 : ℝ))).sub hs.1.tendsto_atTop_zero
  · rw [show spinBoth a b r h w = fun _ => 0 from funext fun k => spin_cancel_far ha hb hr hw k]
    exact hasSum_zero

/-- **C101** (exact flow). The sum of all images is a Stokes flow in the fluid, has the velocities of the two spheres on
them, and far away the fluid is at rest. -/
theorem C101_stokes {a b r : ℝ} (ha : 0 < a) (hb : 0 < b) (hr : a + b < r) :
    (∀ x y w, InFluid a b r x y w → FlowsFreely (turningFlow a b r) x y w ∧ Smooth (turningFlow a b r) x y w) ∧
    (∀ x y w, x ^ 2 + y ^ 2 + w ^ 2 = a ^ 2 → turningFlow a b r x y w = ![-y, x, 0]) ∧
    (∀ x y w, x ^ 2 + y ^ 2 + (w - r) ^ 2 = b ^ 2 → turningFlow a b r x y w = 0) ∧
    ∃ K, ∀ x y w, (2 * r) ^ 2 ≤ x ^ 2 + y ^ 2 + w ^ 2 → ∀ i, |turningFlow a b r x y w i| ≤ K / (x ^ 2 + y ^ 2 + w ^ 2) := by
  have hr0 : 0 < r := by linarith
  have e1 := edge_lt (b := b) ha hr
  have e2 : b ^ 2 / (r - a) < b := edge_lt hb (by linarith)
  have hd : 0 < min (a - a ^ 2 / (r - b)) (b - b ^ 2 / (r - a)) := lt_min (by linarith) (by linarith)
  refine ⟨fun x y w ⟨h1, h2⟩ => ?_, fun x y w h => ?_, fun x y w h => ?_, 8 * ∑' k, |(allImages a b r k).strength|,
    fun x y w h i => ?_⟩
  · refine sum_flows (swirls_summable ha hb hr) (swirls_inside ha hb hr) hr0.le hd ?_ ?_ ?_ fun k => C101_swirl _ _ fun h => ?_
    · filter_upwards [(by fun_prop : Continuous fun t : ℝ => t ^ 2 + y ^ 2 + w ^ 2).continuousAt.eventually_const_lt h1,
        (by fun_prop : Continuous fun t : ℝ => t ^ 2 + y ^ 2 + (w - r) ^ 2).continuousAt.eventually_const_lt h2] with t x1 x2 k
      exact swirls_apart ha hb hr x1.le x2.le k
    · filter_upwards [(by fun_prop : Continuous fun t : ℝ => x ^ 2 + t ^ 2 + w ^ 2).continuousAt.eventually_const_lt h1,
        (by fun_prop : Continuous fun t : ℝ => x ^ 2 + t ^ 2 + (w - r) ^ 2).continuousAt.eventually_const_lt h2] with t x1 x2 k
      exact swirls_apart ha hb hr x1.le x2.le k
    · filter_upwards [(by fun_prop : Continuous fun t : ℝ => x ^ 2 + y ^ 2 + t ^ 2).continuousAt.eventually_const_lt h1,
        (by fun_prop : Continuous fun t : ℝ => x ^ 2 + y ^ 2 + (t - r) ^ 2).continuousAt.eventually_const_lt h2] with t x1 x2 k
      exact swirls_apart ha hb hr x1.le x2.le k
    · have h3 := swirls_apart ha hb hr h1.le h2.le k
      rw [← h.2.2, h.1, h.2.1, sub_self] at h3
      have := pow_pos hd 2
      linarith
  · have hh := Real.sq_sqrt (by positivity : 0 ≤ x ^ 2 + y ^ 2)
    have hw : b ^ 2 ≤ x ^ 2 + y ^ 2 + (w - r) ^ 2 := by
      nlinarith [abs_le_of_sq_le_sq' (by nlinarith [sq_nonneg x, sq_nonneg y] : w ^ 2 ≤ a ^ 2) ha.le]
    rw [turning_sum ha hb hr h.ge hw ((C101_flow ha hb hr).2.2.1 _ _ (by rw [hh, h])), neg_one_mul, one_mul]
  · have hh := Real.sq_sqrt (by positivity : 0 ≤ x ^ 2 + y ^ 2)
    have hw : a ^ 2 ≤ x ^ 2 + y ^ 2 + w ^ 2 := by
      nlinarith [abs_le_of_sq_le_sq' (by nlinarith [sq_nonneg x, sq_nonneg y] : (w - r) ^ 2 ≤ b ^ 2) hb.le]
    rw [turning_sum ha hb hr hw h.ge ((C101_flow ha hb hr).2.2.2 _ _ (by rw [hh, h]))]
    funext j
    fin_cases j <;> simp
  · have hs := ((swirls_summable ha hb hr).mul_right (8 / (x ^ 2 + y ^ 2 + w ^ 2))).hasSum
    refine (tsum_of_norm_bounded (f := fun k => swirlFlow (allImages a b r k).strength (allImages a b r k).offset x y w i) hs
      fun k => swirl_far hr0 (swirls_inside ha hb hr k) h i).trans_eq ?_
    rw [tsum_mul_right]
    ring

/-- **C101** (the only one). There is no other flow without pressure that has the velocities of the two spheres on them and
is at rest far away. -/
theorem C101_unique {a b r : ℝ} (ha : 0 < a) (hb : 0 < b) (hr : a + b < r) {u : ℝ → ℝ → ℝ → Fin 3 → ℝ}
    (hc : ∀ i, ContinuousOn (fun p : ℝ × ℝ × ℝ => u p.1 p.2.1 p.2.2 i) {p | NotInside a b r p.1 p.2.1 p.2.2})
    (hu : ∀ x y w, InFluid a b r x y w → FlowsFreely u x y w ∧ Smooth u x y w)
    (h1 : ∀ x y w, x ^ 2 + y ^ 2 + w ^ 2 = a ^ 2 → u x y w = ![-y, x, 0])
    (h2 : ∀ x y w, x ^ 2 + y ^ 2 + (w - r) ^ 2 = b ^ 2 → u x y w = 0)
    (hi : ∀ ε, 0 < ε → ∃ R, ∀ x y w, R ≤ x ^ 2 + y ^ 2 + w ^ 2 → ∀ i, |u x y w i| ≤ ε) {x y w : ℝ}
    (h : NotInside a b r x y w) : u x y w = turningFlow a b r x y w := by
  obtain ⟨t1, t2, t3, K, t4⟩ := C101_stokes ha hb hr
  have hC : IsClosed {p : ℝ × ℝ × ℝ | NotInside a b r p.1 p.2.1 p.2.2} := by
    simp only [NotInside, Set.setOf_and]
    exact (isClosed_le continuous_const (by fun_prop)).inter (isClosed_le continuous_const (by fun_prop))
  have hD : IsOpen {p : ℝ × ℝ × ℝ | InFluid a b r p.1 p.2.1 p.2.2} := by
    simp only [InFluid, Set.setOf_and]
    exact (isOpen_lt continuous_const (by fun_prop)).inter (isOpen_lt continuous_const (by fun_prop))
  have hDC : {p : ℝ × ℝ × ℝ | InFluid a b r p.1 p.2.1 p.2.2} ⊆ {p | NotInside a b r p.1 p.2.1 p.2.2} :=
    fun p hp => ⟨hp.1.le, hp.2.le⟩
  have hb' : ∀ x y w, (x, y, w) ∈ {p : ℝ × ℝ × ℝ | NotInside a b r p.1 p.2.1 p.2.2} →
      (x, y, w) ∉ {p : ℝ × ℝ × ℝ | InFluid a b r p.1 p.2.1 p.2.2} → u x y w = turningFlow a b r x y w := fun x y w hn hf => by
    have hn : NotInside a b r x y w := hn
    have hf : ¬InFluid a b r x y w := hf
    rcases hn.1.lt_or_eq with e | e
    · rcases hn.2.lt_or_eq with e' | e'
      · exact absurd ⟨e, e'⟩ hf
      · rw [h2 x y w e'.symm, t3 x y w e'.symm]
    · rw [h1 x y w e.symm, t2 x y w e.symm]
  have iu : ∀ ε, 0 < ε → ∃ R, ∀ x y w, (x, y, w) ∈ {p : ℝ × ℝ × ℝ | NotInside a b r p.1 p.2.1 p.2.2} →
      R ≤ x ^ 2 + y ^ 2 + w ^ 2 → ∀ i, |u x y w i| ≤ ε := fun ε hε =>
    (hi ε hε).imp fun R hR x y w _ => hR x y w
  have iv : ∀ ε, 0 < ε → ∃ R, ∀ x y w, (x, y, w) ∈ {p : ℝ × ℝ × ℝ | NotInside a b r p.1 p.2.1 p.2.2} →
      R ≤ x ^ 2 + y ^ 2 + w ^ 2 → ∀ i, |turningFlow a b r x y w i| ≤ ε := fun ε hε => by
    refine ⟨max ((2 * r) ^ 2) (|K| / ε), fun x y w _ hR i => ?_⟩
    have hr0 : 0 < (2 * r) ^ 2 := by have : 0 < r := by linarith
                                     positivity
    have hp := hr0.trans_le ((le_max_left _ _).trans hR)
    refine (t4 x y w ((le_max_left _ _).trans hR) i).trans ((div_le_iff₀ hp).2 ?_)
    have := (div_le_iff₀ hε).1 ((le_max_right _ _).trans hR)
    linarith [le_abs_self K]
  funext i
  exact le_antisymm (flow_le hC hD hDC hc (turning_continuous ha hb hr) hu t1 hb' iu iv h i)
    (flow_le hC hD hDC (turning_continuous ha hb hr) hc t1 hu (fun x y w h1 h2 => (hb' x y w h1 h2).symm) iv iu h i)

/-- **C101** (torques of the flow). The fluid exerts on the two spheres the torques that the strengths of the images in them
add up to. -/
theorem C101_held {a b r : ℝ} (ha : 0 < a) (hb : 0 < b) (hr : a + b < r) (mu : ℝ) :
    fluidTorque mu (turningFlow a b r) 0 a = -(8 * Real.pi * mu * ownTorque a b r) ∧
    fluidTorque mu (turningFlow a b r) r b = -(8 * Real.pi * mu * farTorque a b r) := by
  have e1 := edge_lt (b := b) ha hr
  have e2 : b ^ 2 / (r - a) < b := edge_lt hb (by linarith)
  have p1 : 0 ≤ a ^ 2 / (r - b) := div_nonneg (by positivity) (by linarith)
  have p2 : 0 ≤ b ^ 2 / (r - a) := div_nonneg (by positivity) (by linarith)
  have own0 : ∀ k, |(allImages a b r (.inl k)).offset - 0| ≤ a ^ 2 / (r - b) := fun k => by
    obtain ⟨h3, h4⟩ := own_offset ha hb hr k
    rw [sub_zero]
    exact (abs_of_nonneg h3).le.trans h4
  have far0 : ∀ k, r - b ^ 2 / (r - a) ≤ |(allImages a b r (.inr k)).offset - 0| := fun k => by
    obtain ⟨h3, h4⟩ := far_offset ha hb hr k
    rw [sub_zero]
    refine le_trans ?_ (le_abs_self _)
    change _ ≤ r - (farImages a b r k).offset
    linarith
  have ownr : ∀ k, r - a ^ 2 / (r - b) ≤ |(allImages a b r (.inl k)).offset - r| := fun k => by
    obtain ⟨h3, h4⟩ := own_offset ha hb hr k
    rw [abs_sub_comm]
    refine le_trans ?_ (le_abs_self _)
    change _ ≤ r - (ownImages a b r k).offset
    linarith
  have farr : ∀ k, |(allImages a b r (.inr k)).offset - r| ≤ b ^ 2 / (r - a) := fun k => by
    obtain ⟨h3, h4⟩ := far_offset ha hb hr k
    rw [show (allImages a b r (.inr k)).offset - r = -(farImages a b r k).offset from by simp only [allImages]; ring, abs_neg]
    exact (abs_of_nonneg h3.le).le.trans h4
  constructor
  · have h := sum_torque mu (c := 0) (R := a) (d := min (a - a ^ 2 / (r - b)) (r - b ^ 2 / (r - a) - a))
      (z := fun k => (allImages a b r k).offset) (swirls_summable ha hb hr) ha (lt_min (by linarith) (by linarith))
      ((min_le_left _ _).trans (by linarith)) fun k => by
        cases k with
        | inl k => exact (min_le_left _ _).trans (le_trans (by linarith [own0 k]) (le_abs_self _))
        | inr k => exact (min_le_right _ _).trans (le_trans (by linarith [far0 k]) (neg_le_abs _))
    refine h.trans (HasSum.tsum_eq ?_)
    have i1 : ∀ k, fluidTorque mu (swirlFlow (allImages a b r (.inl k)).strength (allImages a b r (.inl k)).offset) 0 a
        = -(8 * Real.pi * mu) * (ownImages a b r k).strength := fun k => by
      rw [(C101_strength mu _ ha).1 ((own0 k).trans_lt e1)]; simp only [allImages]; ring
    have i2 : ∀ k, fluidTorque mu (swirlFlow (allImages a b r (.inr k)).strength (allImages a b r (.inr k)).offset) 0 a = 0 :=
      fun k => (C101_strength mu _ ha).2 (lt_of_lt_of_le (by linarith) (far0 k))
    have hsum := HasSum.sum (f := fun k => fluidTorque mu (swirlFlow (allImages a b r k).strength (allImages a b r k).offset) 0 a)
      (((own_summable ha hb hr).hasSum.mul_left (-(8 * Real.pi * mu))).congr_fun fun k => i1 k)
      ((hasSum_zero (α := ℝ)).congr_fun fun k => i2 k)
    rw [add_zero, neg_mul] at hsum
    exact hsum
  · have h := sum_torque mu (c := r) (R := b) (d := min (b - b ^ 2 / (r - a)) (r - a ^ 2 / (r - b) - b))
      (z := fun k => (allImages a b r k).offset) (swirls_summable ha hb hr) hb (lt_min (by linarith) (by linarith))
      ((min_le_left _ _).trans (by linarith)) fun k => by
        cases k with
        | inl k => exact (min_le_right _ _).trans (le_trans (by linarith [ownr k]) (neg_le_abs _))
        | inr k => exact (min_le_left _ _).trans (le_trans (by linarith [farr k]) (le_abs_self _))
    refine h.trans (HasSum.tsum_eq ?_)
    have i1 : ∀ k, fluidTorque mu (swirlFlow (allImages a b r (.inl k)).strength (allImages a b r (.inl k)).offset) r b = 0 :=
      fun k => (C101_strength mu _ hb).2 (lt_of_lt_of_le (by linarith) (ownr k))
    have i2 : ∀ k, fluidTorque mu (swirlFlow (allImages a b r (.inr k)).strength (allImages a b r (.inr k)).offset) r b
        = -(8 * Real.pi * mu) * (farImages a b r k).strength := fun k => by
      rw [(C101_strength mu _ hb).1 ((farr k).trans_lt e2)]; simp only [allImages]; ring
    have hsum := HasSum.sum (f := fun k => fluidTorque mu (swirlFlow (allImages a b r k).strength (allImages a b r k).offset) r b)
      ((hasSum_zero (α := ℝ)).congr_fun fun k => i1 k)
      (((far_summable ha hb hr).hasSum.mul_left (-(8 * Real.pi * mu))).congr_fun fun k => i2 k)
    rw [zero_add, neg_mul] at hsum
    exact hsum

/-- **C101** (torques). The sphere that turns needs at least the torque it would need alone, the other has to be held back,
and the torque on each due to the other is the same. -/
theorem C101_torques {a b r : ℝ} (ha : 0 < a) (hb : 0 < b) (hr : a + b < r) :
    a ^ 3 < ownTorque a b r ∧ farTorque a b r < 0 ∧ farTorque a b r = farTorque b a r := by
  refine ⟨?_, ?_, ?_⟩
  · have h := (own_summable ha hb hr).sum_le_tsum (Finset.range 2) fun k _ => (own_bound ha hb hr k).1.le
    rw [Finset.sum_range_succ, Finset.sum_range_one] at h
    have h1 := (own_bound ha hb hr 1).1
    have h0 : (ownImages a b r 0).strength = a ^ 3 := rfl
    unfold ownTorque
    linarith
  · unfold farTorque
    have h := (far_summable ha hb hr).neg.sum_le_tsum (Finset.range 1) fun k _ => by
      have := (far_bound ha hb hr k).1; linarith
    rw [Finset.sum_range_one, tsum_neg] at h
    have := (far_bound ha hb hr 0).1
    linarith
  · rw [far_torque ha hb hr, far_torque hb ha (by linarith), mul_comm b a,
      show r ^ 2 - b ^ 2 - a ^ 2 = r ^ 2 - a ^ 2 - b ^ 2 from by ring]

/-- **C101** (contact). As the gap closes, the two functions that the code takes for the torques about the line of centres
have the limits of the exact torques. -/
theorem C101_contact {a b : ℝ} (ha : 0 < a) (hb : 0 < b) :
    Tendsto (fun r => a ^ 3 * Nearfield.X11C (2 * r / (a + b) - 2) (b / a) - ownTorque a b r) (𝓝[>] (a + b)) (𝓝 0) ∧
    Tendsto (fun r => a ^ 3 * Nearfield.X12C (2 * r / (a + b) - 2) (b / a) - farTorque b a r) (𝓝[>] (a + b)) (𝓝 0) := by
  have hab : a + b ≠ 0 := by positivity
  have hid : Tendsto (fun r : ℝ => r) (𝓝[>] (a + b)) (𝓝 (a + b)) := tendsto_id.mono_left nhdsWithin_le_nhds
  have hxi : Tendsto (fun r : ℝ => 2 * r / (a + b) - 2) (𝓝[>] (a + b)) (𝓝 0) := by
    have := ((hid.const_mul 2).div_const (a + b)).sub_const 2
    rwa [mul_div_assoc, div_self hab, mul_one, sub_self] at this
  have hlog : Tendsto (fun r : ℝ => (2 * r / (a + b) - 2) * Real.log (2 * r / (a + b) - 2)⁻¹) (𝓝[>] (a + b)) (𝓝 0) := by
    have := ((Real.continuous_mul_log.tendsto 0).comp hxi).neg
    simp only [Real.log_zero, mul_zero, neg_zero] at this
    exact this.congr fun r => by simp only [Function.comp, Real.log_inv]; ring
  have hT : Tendsto (fun r : ℝ => (r ^ 2 - a ^ 2 - b ^ 2) / (a * b)) (𝓝[>] (a + b)) (𝓝 2) := by
    have := (((hid.pow 2).sub_const (a ^ 2)).sub_const (b ^ 2)).div_const (a * b)
    rwa [show ((a + b) ^ 2 - a ^ 2 - b ^ 2) / (a * b) = 2 from by field_simp; ring] at this
  have hev : ∀ᶠ r in 𝓝[>] (a + b), a + b < r := eventually_mem_nhdsWithin
  constructor
  · have hd : Tendsto (fun r : ℝ => ratio a b r 0) (𝓝[>] (a + b)) (𝓝 (1 + (a + b) / b)) := by
      have := ((hid.pow 2).sub_const (b ^ 2)).div_const (a * b)
      rw [show ((a + b) ^ 2 - b ^ 2) / (a * b) = 1 + (a + b) / b from by field_simp; ring] at this
      exact this.congr fun r => by unfold ratio; ring
    have hs := sum_tendsto (by positivity : 0 < (a + b) / b) hT hd (hev.mono fun r h => T_ge ha hb h)
      (hev.mono fun r h => own_ratio_ge ha hb h)
    rw [zeta_sum (by positivity)] at hs
    have h1 := (((tendsto_const_nhds (x := (b / a) ^ 3 / (1 + b / a) ^ 3 * Nearfield.zeta3 (b / a / (1 + b / a)))).sub
      (hlog.const_mul ((b / a) ^ 2 / (4 * (1 + b / a))))).sub hs).const_mul (a ^ 3)
    rw [show ((a + b) / b)⁻¹ = b / a / (1 + b / a) from by field_simp, ← div_pow, mul_zero, sub_zero, sub_self, mul_zero] at h1
    refine h1.congr' (hev.mono fun r h => ?_)
    simp only [own_torque ha hb h, Nearfield.X11C]
    rw [← div_pow]
    ring
  · have hd : Tendsto (fun r : ℝ => (r ^ 2 - a ^ 2 - b ^ 2) / (a * b)) (𝓝[>] (a + b)) (𝓝 (1 + 1)) := by norm_num; exact hT
    have hs := sum_tendsto one_pos hT hd (hev.mono fun r h => T_ge ha hb h)
      (hev.mono fun r h => by linarith [T_ge ha hb h])
    rw [zeta_sum one_pos, inv_one, one_pow, one_mul] at hs
    have hq : Tendsto (fun r : ℝ => -(a * b / r) ^ 3) (𝓝[>] (a + b)) (𝓝 (-(a * b / (a + b)) ^ 3)) :=
      ((tendsto_const_nhds.div hid hab).pow 3).neg
    have h1 := ((tendsto_const_nhds (x := -(b / a) ^ 3 / (1 + b / a) ^ 3 * Nearfield.zeta3 1)).add
      (hlog.const_mul ((b / a) ^ 2 / (4 * (1 + b / a))))).const_mul (a ^ 3) |>.sub (hq.mul hs)
    rw [show a ^ 3 * (-(b / a) ^ 3 / (1 + b / a) ^ 3 * Nearfield.zeta3 1 + (b / a) ^ 2 / (4 * (1 + b / a)) * 0)
      - -(a * b / (a + b)) ^ 3 * Nearfield.zeta3 1 = 0 from by field_simp; ring] at h1
    refine h1.congr' (hev.mono fun r h => ?_)
    simp only [far_torque ha hb h, Nearfield.X12C]
    ring

/-- **C101** (small gaps). The difference from the exact torques is at most in proportion to the gap, so that the code has
their limits and also their `xi log xi` terms. -/
theorem C101_rate {a b : ℝ} (ha : 0 < a) (hb : 0 < b) :
    (∃ K d, 0 < d ∧ ∀ r, a + b < r → r < a + b + d →
      |a ^ 3 * Nearfield.X11C (2 * r / (a + b) - 2) (b / a) - ownTorque a b r| ≤ K * (r - (a + b))) ∧
    (∃ K d, 0 < d ∧ ∀ r, a + b < r → r < a + b + d →
      |a ^ 3 * Nearfield.X12C (2 * r / (a + b) - 2) (b / a) - farTorque b a r| ≤ K * (r - (a + b))) := by
  have hab : 0 < a + b := by positivity
  obtain ⟨X, hXd⟩ : ∃ X : ℝ → ℝ, X = fun r => 2 * r / (a + b) - 2 := ⟨_, rfl⟩
  obtain ⟨hX, hsq, hQ, hh, h1, h2, h3⟩ := params ha hb hXd
  have hev : ∀ᶠ r in 𝓝[>] (a + b), a + b < r := eventually_mem_nhdsWithin
  have hX0 : ∀ᶠ r in 𝓝[>] (a + b), 0 < X r := hev.mono fun r hr => by
    rw [hXd]
    have : 2 < 2 * r / (a + b) := by rw [lt_div_iff₀ hab]; linarith
    linarith
  have hc0 : ∀ᶠ r in 𝓝[>] (a + b), 0 < half a b r := hev.mono fun r hr => half_pos ha hb hr
  have hg0 : ∀ᶠ r in 𝓝[>] (a + b), 0 < gam a b r := hev.mono fun r hr => gam_pos ha hb hr
  have hg1 : ∀ᶠ r in 𝓝[>] (a + b), gam a b r ≤ 1 := by
    have t : Tendsto (fun r => gam a b r) (𝓝[>] (a + b)) (𝓝 0) := by
      have e := ((Real.continuous_arsinh.tendsto 0).comp (by simpa using hh.div_const a)).add
        ((Real.continuous_arsinh.tendsto 0).comp (by simpa using hh.div_const b))
      simpa [gam, Function.comp_def] using e
    exact t.eventually_le_const one_pos
  have hp : (fun r => Real.arsinh (half a b r / a) / gam a b r - b / (a + b)) =O[𝓝[>] (a + b)] X := by
    have t : Tendsto (fun r => half a b r / gam a b r) (𝓝[>] (a + b)) (𝓝 (a * b / (a + b))) := by
      have := (h3.trans_tendsto hX).add_const (a * b / (a + b))
      simpa using this
    have e1 := h1.mul (t.isBigO_one ℝ)
    have e2 := h3.const_mul_left (1 / a)
    simp only [mul_one] at e1
    refine (e1.add e2).congr' ?_ EventuallyEq.rfl
    filter_upwards [hc0, hg0] with r x1 x2
    field_simp
    ring
  have tp : Tendsto (fun r => Real.arsinh (half a b r / a) / gam a b r) (𝓝[>] (a + b)) (𝓝 (b / (a + b))) := by
    have := (hp.trans_tendsto hX).add_const (b / (a + b))
    simpa using this
  have hq : 0 < b / (a + b) := by positivity
  have hp' : ∀ᶠ r in 𝓝[>] (a + b), b / (a + b) / 2 ≤ Real.arsinh (half a b r / a) / gam a b r ∧
      Real.arsinh (half a b r / a) / gam a b r ≤ 1 := by
    filter_upwards [tp.eventually_const_le (by linarith : b / (a + b) / 2 < b / (a + b)), hc0, hg0] with r x1 x2 x3
    refine ⟨x1, ?_⟩
    rw [div_le_one x3]
    have := arsinh_pos' (x := half a b r / b) (by positivity)
    unfold gam
    linarith
  constructor
  · have h := expand (by linarith : 0 < b / (a + b) / 2) (by linarith) (by positivity) (by positivity : 0 < a * b) hX hX0 hc0 hg0 hg1
      hp' hp h3 hsq hQ
    refine near_bound (X := X) ?_ ha hb hXd
    refine h.neg_left.congr' ?_ EventuallyEq.rfl
    filter_upwards [hev] with r hr
    rw [own_torque ha hb hr, own_sinh ha hb hr]
    simp only [Nearfield.X11C, hXd, Real.log_inv]
    rw [show b / a / (1 + b / a) = b / (a + b) from by field_simp]
    field_simp
    ring
  · have h := expand (p := fun _ => 1) (q0 := 1) (p0 := 1) one_pos le_rfl (by positivity) (by positivity : 0 < a * b) hX hX0 hc0 hg0
      hg1 (Eventually.of_forall fun _ => ⟨le_rfl, le_rfl⟩) (by simpa using isBigO_zero X _) h3 hsq hQ
    refine near_bound (X := X) ?_ ha hb hXd
    refine h.congr' ?_ EventuallyEq.rfl
    filter_upwards [hev] with r hr
    rw [far_torque ha hb hr, neg_mul, far_sinh ha hb hr]
    simp only [Nearfield.X12C, hXd, Real.log_inv]
    field_simp
    ring

/-! ## A concrete case -/

/-- Spheres of radii 1 and 2 with a gap of a tenth: on the near pole of sphere 1 the fluid turns with the sphere. -/
example : HasSum (spinBoth 1 2 (31 / 10) 0 1) 1 :=
  (C101_flow (by norm_num) (by norm_num) (by norm_num)).2.2.1 0 1 (by norm_num)

/-- A swirl at the height 1 is a Stokes flow at the origin. -/
example : FlowsFreely (swirlFlow 2 1) 0 0 0 := C101_swirl 2 1 (by norm_num)

/-- Spheres of radii 1 and 2 with a gap of a tenth: beside the gap the fluid flows, and the near pole of sphere 1 turns. -/
example : FlowsFreely (turningFlow 1 2 (31 / 10)) 1 0 1 ∧ turningFlow 1 2 (31 / 10) (3 / 5) 0 (4 / 5) = ![0, 3 / 5, 0] := by
  have h := C101_stokes (a := 1) (b := 2) (r := 31 / 10) (by norm_num) (by norm_num) (by norm_num)
  refine ⟨(h.1 _ _ _ ⟨by norm_num, by norm_num⟩).1, ?_⟩
  rw [h.2.1 _ _ _ (by norm_num), neg_zero]

/-- The flow itself meets all the conditions under which it is the only one, with spheres of radii 1 and 2. -/
example : ∃ u : ℝ → ℝ → ℝ → Fin 3 → ℝ,
    (∀ i, ContinuousOn (fun p : ℝ × ℝ × ℝ => u p.1 p.2.1 p.2.2 i) {p | NotInside 1 2 (31 / 10) p.1 p.2.1 p.2.2}) ∧
    (∀ x y w, InFluid 1 2 (31 / 10) x y w → FlowsFreely u x y w ∧ Smooth u x y w) ∧
    (∀ x y w, x ^ 2 + y ^ 2 + w ^ 2 = 1 ^ 2 → u x y w = ![-y, x, 0]) ∧
    (∀ x y w, x ^ 2 + y ^ 2 + (w - 31 / 10) ^ 2 = 2 ^ 2 → u x y w = 0) ∧
    ∀ ε, 0 < ε → ∃ R, ∀ x y w, R ≤ x ^ 2 + y ^ 2 + w ^ 2 → ∀ i, |u x y w i| ≤ ε := by
  obtain ⟨t1, t2, t3, K, t4⟩ := C101_stokes (a := 1) (b := 2) (r := 31 / 10) (by norm_num) (by norm_num) (by norm_num)
  refine ⟨turningFlow 1 2 (31 / 10), turning_continuous (by norm_num) (by norm_num) (by norm_num), t1, t2, t3, fun ε hε => ?_⟩
  refine ⟨max ((2 * (31 / 10)) ^ 2) (|K| / ε), fun x y w hR i => ?_⟩
  have hp := lt_of_lt_of_le (by norm_num : (0 : ℝ) < (2 * (31 / 10)) ^ 2) ((le_max_left _ _).trans hR)
  refine (t4 x y w ((le_max_left _ _).trans hR) i).trans ((div_le_iff₀ hp).2 ?_)
  have := (div_le_iff₀ hε).1 ((le_max_right _ _).trans hR)
  linarith [le_abs_self K]

/-- A swirl of strength 2 at the height 1 and the sphere of radius 3 around the origin, and one that it is outside of. -/
example : fluidTorque 1 (swirlFlow 2 1) 0 3 = -(16 * Real.pi) ∧ fluidTorque 1 (swirlFlow 2 1) 0 (1 / 2) = 0 := by
  refine ⟨?_, (C101_strength 1 2 (by norm_num)).2 (by norm_num)⟩
  rw [(C101_strength 1 2 (by norm_num)).1 (by norm_num)]; ring

/-- The fluid holds the turning sphere back. -/
example : fluidTorque 1 (turningFlow 1 2 (31 / 10)) 0 1 < 0 := by
  rw [(C101_held (by norm_num) (by norm_num) (by norm_num) 1).1]
  have := (C101_torques (a := 1) (b := 2) (r := 31 / 10) (by norm_num) (by norm_num) (by norm_num)).1
  have := Real.pi_pos
  nlinarith

example : 1 < ownTorque 1 2 (31 / 10) ∧ farTorque 1 2 (31 / 10) < 0 := by
  have h := C101_torques (a := 1) (b := 2) (r := 31 / 10) (by norm_num) (by norm_num) (by norm_num)
  exact ⟨by simpa using h.1, h.2.1⟩

end SD
