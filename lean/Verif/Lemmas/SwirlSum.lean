import Verif.Lemmas.Swirl
import Mathlib.Analysis.Calculus.SmoothSeries

/-!
# Series of swirls may be differentiated term by term
-/

set_option autoImplicit false

namespace SD.Twist

open Filter Topology Spec

variable {ι : Type} {g g1 g2 : ι → ℝ → ℝ} {u c q z : ι → ℝ} {t₀ d L : ℝ}

/-- A series can be differentiated twice term by term. -/
def Termwise (g : ι → ℝ → ℝ) (t₀ : ℝ) : Prop :=
  (Summable fun n => deriv (g n) t₀) ∧ (Summable fun n => deriv (deriv (g n)) t₀) ∧
  deriv (fun t => ∑' n, g n t) t₀ = ∑' n, deriv (g n) t₀ ∧
  deriv (deriv fun t => ∑' n, g n t) t₀ = ∑' n, deriv (deriv (g n)) t₀ ∧ Twice (fun t => ∑' n, g n t) t₀

theorem termwise (hu : Summable u) (h : ∀ᶠ t in 𝓝 t₀, ∀ n, HasDerivAt (g n) (g1 n t) t ∧ HasDerivAt (g1 n) (g2 n t) t ∧
    |g n t| ≤ u n ∧ |g1 n t| ≤ u n ∧ |g2 n t| ≤ u n) : Termwise g t₀ := by
  obtain ⟨δ, hδ, hb⟩ := Metric.eventually_nhds_iff_ball.1 h
  have hp : IsPreconnected (Metric.ball t₀ δ) := (convex_ball t₀ δ).isPreconnected
  have h0 : t₀ ∈ Metric.ball t₀ δ := Metric.mem_ball_self hδ
  have s0 : Summable fun n => g n t₀ := .of_norm_bounded hu fun n => (hb _ h0 n).2.2.1
  have s1 : Summable fun n => g1 n t₀ := .of_norm_bounded hu fun n => (hb _ h0 n).2.2.2.1
  have s2 : Summable fun n => g2 n t₀ := .of_norm_bounded hu fun n => (hb _ h0 n).2.2.2.2
  have d1 : ∀ t ∈ Metric.ball t₀ δ, HasDerivAt (fun t => ∑' n, g n t) (∑' n, g1 n t) t := fun t ht =>
    hasDerivAt_tsum_of_isPreconnected hu Metric.isOpen_ball hp (fun n y hy => (hb y hy n).1) (fun n y hy => (hb y hy n).2.2.2.1)
      h0 s0 ht
  have d2 : HasDerivAt (fun t => ∑' n, g1 n t) (∑' n, g2 n t₀) t₀ :=
    hasDerivAt_tsum_of_isPreconnected hu Metric.isOpen_ball hp (fun n y hy => (hb y hy n).2.1) (fun n y hy => (hb y hy n).2.2.2.2)
      h0 s1 h0
  have near : ∀ᶠ t in 𝓝 t₀, t ∈ Metric.ball t₀ δ := Metric.ball_mem_nhds _ hδ
  have e1 : ∀ n, deriv (g n) t₀ = g1 n t₀ := fun n => (hb _ h0 n).1.deriv
  have e2 : ∀ n, deriv (deriv (g n)) t₀ = g2 n t₀ := fun n => by
    have e : deriv (g n) =ᶠ[𝓝 t₀] g1 n := near.mono fun t ht => (hb t ht n).1.deriv
    rw [e.deriv_eq]
    exact (hb _ h0 n).2.1.deriv
  have e3 : deriv (fun t => ∑' n, g n t) =ᶠ[𝓝 t₀] fun t => ∑' n, g1 n t := near.mono fun t ht => (d1 t ht).deriv
  refine ⟨by simpa only [e1] using s1, by simpa only [e2] using s2, ?_, ?_, near.mono fun t ht => (d1 t ht).differentiableAt,
    d2.differentiableAt.congr_of_eventuallyEq e3⟩
  · simp only [e1]; exact (d1 _ h0).deriv
  · simp only [e2]; rw [e3.deriv_eq]; exact d2.deriv

theorem pw_le {e q t : ℝ} (he : e ≤ 0) (hd : 0 < d) (h : d ^ 2 ≤ t ^ 2 + q) : 0 ≤ pw e q t ∧ pw e q t ≤ (d ^ 2) ^ e := by
  have : 0 < d ^ 2 := by positivity
  exact ⟨Real.rpow_nonneg (by linarith) _, Real.rpow_le_rpow_of_nonpos this h he⟩

/-- The first kind of function that a swirl is along a line, and its derivatives. -/
theorem pw_lines (c q : ℝ) {t : ℝ} (h : 0 < t ^ 2 + q) :
    HasDerivAt (fun t => c * pw (-3 / 2) q t) (c * (-3 * (t * pw (-5 / 2) q t))) t ∧
    HasDerivAt (fun t => c * (-3 * (t * pw (-5 / 2) q t))) (c * (-3 * pw (-5 / 2) q t + 15 * t ^ 2 * pw (-7 / 2) q t)) t := by
  constructor
  · refine ((pw_deriv (-3 / 2) q h).const_mul c).congr_deriv ?_
    rw [show (-3 / 2 - 1 : ℝ) = -5 / 2 from by norm_num]; ring
  · refine ((((hasDerivAt_id t).mul (pw_deriv (-5 / 2) q h)).const_mul (-3)).const_mul c).congr_deriv ?_
    rw [show (-5 / 2 - 1 : ℝ) = -7 / 2 from by norm_num, id]
    ring

/-- The second kind. -/
theorem pw_lines' (c q : ℝ) {t : ℝ} (h : 0 < t ^ 2 + q) :
    HasDerivAt (fun t => c * (t * pw (-3 / 2) q t)) (c * (pw (-3 / 2) q t - 3 * (t ^ 2 * pw (-5 / 2) q t))) t ∧
    HasDerivAt (fun t => c * (pw (-3 / 2) q t - 3 * (t ^ 2 * pw (-5 / 2) q t)))
      (c * (-9 * t * pw (-5 / 2) q t + 15 * t ^ 3 * pw (-7 / 2) q t)) t := by
  constructor
  · refine (((hasDerivAt_id t).mul (pw_deriv (-3 / 2) q h)).const_mul c).congr_deriv ?_
    rw [show (-3 / 2 - 1 : ℝ) = -5 / 2 from by norm_num, id]; ring
  · refine (((pw_deriv (-3 / 2) q h).sub (((hasDerivAt_pow 2 t).mul (pw_deriv (-5 / 2) q h)).const_mul 3)).const_mul c).congr_deriv ?_
    rw [show (-3 / 2 - 1 : ℝ) = -5 / 2 from by norm_num, show (-5 / 2 - 1 : ℝ) = -7 / 2 from by norm_num]
    push_cast
    ring

theorem abs_mul_le {c v K : ℝ} (h : |v| ≤ K) : |c * v| ≤ |c| * K := by
  rw [abs_mul]; exact mul_le_mul_of_nonneg_left h (abs_nonneg c)

/-- The functions and their derivatives are bounded in proportion to their strength. -/
theorem line_bounds (hd : 0 < d) (hL : 0 ≤ L) : ∃ K, ∀ c q t : ℝ, |t| ≤ L → d ^ 2 ≤ t ^ 2 + q →
    (|c * pw (-3 / 2) q t| ≤ |c| * K ∧ |c * (-3 * (t * pw (-5 / 2) q t))| ≤ |c| * K ∧
      |c * (-3 * pw (-5 / 2) q t + 15 * t ^ 2 * pw (-7 / 2) q t)| ≤ |c| * K) ∧
    |c * (t * pw (-3 / 2) q t)| ≤ |c| * K ∧ |c * (pw (-3 / 2) q t - 3 * (t ^ 2 * pw (-5 / 2) q t))| ≤ |c| * K ∧
      |c * (-9 * t * pw (-5 / 2) q t + 15 * t ^ 3 * pw (-7 / 2) q t)| ≤ |c| * K := by
  obtain ⟨D3, hD3⟩ : ∃ D, D = (d ^ 2) ^ (-3 / 2 : ℝ) := ⟨_, rfl⟩
  obtain ⟨D5, hD5⟩ : ∃ D, D = (d ^ 2) ^ (-5 / 2 : ℝ) := ⟨_, rfl⟩
  obtain ⟨D7, hD7⟩ : ∃ D, D = (d ^ 2) ^ (-7 / 2 : ℝ) := ⟨_, rfl⟩
  refine ⟨(1 + L) * D3 + (3 + 12 * L + 3 * L ^ 2) * D5 + 15 * (L ^ 2 + L ^ 3) * D7, fun c q t ht hq => ?_⟩
  obtain ⟨a3, b3⟩ := pw_le (by norm_num : (-3 / 2 : ℝ) ≤ 0) hd hq
  obtain ⟨a5, b5⟩ := pw_le (by norm_num : (-5 / 2 : ℝ) ≤ 0) hd hq
  obtain ⟨a7, b7⟩ := pw_le (by norm_num : (-7 / 2 : ℝ) ≤ 0) hd hq
  rw [← hD3] at b3
  rw [← hD5] at b5
  rw [← hD7] at b7
  generalize pw (-3 / 2) q t = p3 at *
  generalize pw (-5 / 2) q t = p5 at *
  generalize pw (-7 / 2) q t = p7 at *
  have t2 : |t| ^ 2 ≤ L ^ 2 := pow_le_pow_left₀ (abs_nonneg t) ht 2
  have t3 : |t| ^ 3 ≤ L ^ 3 := pow_le_pow_left₀ (abs_nonneg t) ht 3
  have m13 : |t| * p3 ≤ L * D3 := mul_le_mul ht b3 a3 hL
  have m15 : |t| * p5 ≤ L * D5 := mul_le_mul ht b5 a5 hL
  have m25 : |t| ^ 2 * p5 ≤ L ^ 2 * D5 := mul_le_mul t2 b5 a5 (by positivity)
  have m27 : |t| ^ 2 * p7 ≤ L ^ 2 * D7 := mul_le_mul t2 b7 a7 (by positivity)
  have m37 : |t| ^ 3 * p7 ≤ L ^ 3 * D7 := mul_le_mul t3 b7 a7 (by positivity)
  have P1 : 0 ≤ L * D3 := mul_nonneg hL (a3.trans b3)
  have P2 : 0 ≤ L * D5 := mul_nonneg hL (a5.trans b5)
  have P3 : 0 ≤ L ^ 2 * D5 := mul_nonneg (by positivity) (a5.trans b5)
  have P4 : 0 ≤ L ^ 2 * D7 := mul_nonneg (by positivity) (a7.trans b7)
  have P5 : 0 ≤ L ^ 3 * D7 := mul_nonneg (by positivity) (a7.trans b7)
  have P6 := a3.trans b3
  have P7 := a5.trans b5
  have v13 : |t * p3| = |t| * p3 := by rw [abs_mul, abs_of_nonneg a3]
  have v15 : |t * p5| = |t| * p5 := by rw [abs_mul, abs_of_nonneg a5]
  have v25 : |t ^ 2 * p5| = |t| ^ 2 * p5 := by rw [abs_mul, abs_of_nonneg a5, abs_pow]
  have v27 : |t ^ 2 * p7| = |t| ^ 2 * p7 := by rw [abs_mul, abs_of_nonneg a7, abs_pow]
  have v37 : |t ^ 3 * p7| = |t| ^ 3 * p7 := by rw [abs_mul, abs_of_nonneg a7, abs_pow]
  have w13 := abs_le.1 v13.le
  have w15 := abs_le.1 v15.le
  have w25 := abs_le.1 v25.le
  have w27 := abs_le.1 v27.le
  have w37 := abs_le.1 v37.le
  refine ⟨⟨abs_mul_le (abs_le.2 ⟨?_, ?_⟩), abs_mul_le (abs_le.2 ⟨?_, ?_⟩), abs_mul_le (abs_le.2 ⟨?_, ?_⟩)⟩,
    abs_mul_le (abs_le.2 ⟨?_, ?_⟩), abs_mul_le (abs_le.2 ⟨?_, ?_⟩), abs_mul_le (abs_le.2 ⟨?_, ?_⟩)⟩ <;> linarith

theorem termwise_lines (hc : Summable fun n => |c n|) (hd : 0 < d) (hL : 0 ≤ L)
    (h : ∀ᶠ t in 𝓝 t₀, ∀ n, d ^ 2 ≤ (t - z n) ^ 2 + q n ∧ |t - z n| ≤ L)
    (hg : ∀ n t, g n t = c n * pw (-3 / 2) (q n) (t - z n)) : Termwise g t₀ := by
  obtain ⟨K, hK⟩ := line_bounds hd hL
  have hd2 : 0 < d ^ 2 := by positivity
  obtain rfl : g = fun n t => c n * pw (-3 / 2) (q n) (t - z n) := funext fun n => funext fun t => hg n t
  refine termwise (g1 := fun n t => c n * (-3 * ((t - z n) * pw (-5 / 2) (q n) (t - z n))))
    (g2 := fun n t => c n * (-3 * pw (-5 / 2) (q n) (t - z n) + 15 * (t - z n) ^ 2 * pw (-7 / 2) (q n) (t - z n)))
    (hc.mul_right K) (h.mono fun t ht n => ?_)
  have h1 := pw_lines (c n) (q n) (hd2.trans_le (ht n).1)
  have h2 := (hK (c n) (q n) (t - z n) (ht n).2 (ht n).1).1
  exact ⟨h1.1.comp_sub_const t (z n), h1.2.comp_sub_const t (z n), h2.1, h2.2.1, h2.2.2⟩

theorem termwise_lines' (hc : Summable fun n => |c n|) (hd : 0 < d) (hL : 0 ≤ L)
    (h : ∀ᶠ t in 𝓝 t₀, ∀ n, d ^ 2 ≤ t ^ 2 + q n ∧ |t| ≤ L)
    (hg : ∀ n t, g n t = c n * (t * pw (-3 / 2) (q n) t)) : Termwise g t₀ := by
  obtain ⟨K, hK⟩ := line_bounds hd hL
  have hd2 : 0 < d ^ 2 := by positivity
  obtain rfl : g = fun n t => c n * (t * pw (-3 / 2) (q n) t) := funext fun n => funext fun t => hg n t
  refine termwise (g1 := fun n t => c n * (pw (-3 / 2) (q n) t - 3 * (t ^ 2 * pw (-5 / 2) (q n) t)))
    (g2 := fun n t => c n * (-9 * t * pw (-5 / 2) (q n) t + 15 * t ^ 3 * pw (-7 / 2) (q n) t)) (hc.mul_right K) (h.mono fun t ht n => ?_)
  have h1 := pw_lines' (c n) (q n) (hd2.trans_le (ht n).1)
  have h2 := (hK (c n) (q n) t (ht n).2 (ht n).1).2
  exact ⟨h1.1, h1.2, h2.1, h2.2.1, h2.2.2⟩

theorem near_abs (t₀ : ℝ) : ∀ᶠ t in 𝓝 t₀, |t| ≤ |t₀| + 1 :=
  (continuous_abs.continuousAt.eventually_lt_const (by linarith : |t₀| < |t₀| + 1)).mono fun _ h => h.le

theorem whirl_pw (s z x y w : ℝ) : whirl s z √(x ^ 2 + y ^ 2) w = s * (x ^ 2 + y ^ 2 + (w - z) ^ 2) ^ (-3 / 2 : ℝ) := by
  unfold whirl
  rw [Real.sq_sqrt (by positivity), show (-3 / 2 : ℝ) = -(3 / 2) from by norm_num, Real.rpow_neg (by positivity)]
  rfl

theorem termwise_zero : Termwise (fun (_ : ι) (_ : ℝ) => (0 : ℝ)) t₀ := by
  simp [Termwise, Twice, summable_zero]

theorem sum_termwise {s : ι → ℝ} {Z x y w : ℝ} (hs : Summable fun n => |s n|) (hz : ∀ n, |z n| ≤ Z) (hZ : 0 ≤ Z) (hd : 0 < d)
    (hx : ∀ᶠ t in 𝓝 x, ∀ n, d ^ 2 ≤ t ^ 2 + y ^ 2 + (w - z n) ^ 2)
    (hy : ∀ᶠ t in 𝓝 y, ∀ n, d ^ 2 ≤ x ^ 2 + t ^ 2 + (w - z n) ^ 2)
    (hw : ∀ᶠ t in 𝓝 w, ∀ n, d ^ 2 ≤ x ^ 2 + y ^ 2 + (t - z n) ^ 2) (i : Fin 3) :
    Termwise (fun n t => swirlFlow (s n) (z n) t y w i) x ∧ Termwise (fun n t => swirlFlow (s n) (z n) x t w i) y ∧
      Termwise (fun n t => swirlFlow (s n) (z n) x y t i) w := by
  have cs : ∀ e : ℝ, Summable fun n => |s n * e| := fun e => by
    simp only [abs_mul]; exact hs.mul_right |e|
  have cn : ∀ e : ℝ, Summable fun n => |-s n * e| := fun e => by
    simp only [abs_mul, abs_neg]; exact hs.mul_right |e|
  have cs1 : Summable fun n => |-s n| := by simpa only [abs_neg] using hs
  have Lx : 0 ≤ |x| + 1 := by positivity
  have Ly : 0 ≤ |y| + 1 := by positivity
  have Lw : 0 ≤ |w| + 1 + Z := by positivity
  have hx' : ∀ᶠ t in 𝓝 x, ∀ n, d ^ 2 ≤ t ^ 2 + (y ^ 2 + (w - z n) ^ 2) ∧ |t| ≤ |x| + 1 :=
    hx.and (near_abs x) |>.mono fun t h n => ⟨by rw [← add_assoc]; exact h.1 n, h.2⟩
  have hy' : ∀ᶠ t in 𝓝 y, ∀ n, d ^ 2 ≤ t ^ 2 + (x ^ 2 + (w - z n) ^ 2) ∧ |t| ≤ |y| + 1 :=
    hy.and (near_abs y) |>.mono fun t h n => ⟨by linarith [h.1 n], h.2⟩
  have hw' : ∀ᶠ t in 𝓝 w, ∀ n, d ^ 2 ≤ (t - z n) ^ 2 + (x ^ 2 + y ^ 2) ∧ |t - z n| ≤ |w| + 1 + Z :=
    hw.and (near_abs w) |>.mono fun t h n => ⟨by linarith [h.1 n], (abs_sub _ _).trans (add_le_add h.2 (hz n))⟩
  have X0 : Termwise (fun n t => swirlFlow (s n) (z n) t y w 0) x :=
    termwise_lines (c := fun n => -s n * y) (z := fun _ => 0) (cn y) hd Lx (by simpa only [sub_zero] using hx') fun n t => by
      simp only [swirlFlow, whirl_pw, Matrix.cons_val_zero, pw, sub_zero, ← add_assoc]; ring
  have X1 : Termwise (fun n t => swirlFlow (s n) (z n) t y w 1) x :=
    termwise_lines' hs hd Lx hx' fun n t => by
      simp only [swirlFlow, whirl_pw, Matrix.cons_val_one, Matrix.cons_val_zero, pw, ← add_assoc]; ring
  have Y0 : Termwise (fun n t => swirlFlow (s n) (z n) x t w 0) y :=
    termwise_lines' cs1 hd Ly hy' fun n t => by
      simp only [swirlFlow, whirl_pw, Matrix.cons_val_zero, pw]
      rw [show t ^ 2 + (x ^ 2 + (w - z n) ^ 2) = x ^ 2 + t ^ 2 + (w - z n) ^ 2 from by ring]; ring
  have Y1 : Termwise (fun n t => swirlFlow (s n) (z n) x t w 1) y :=
    termwise_lines (c := fun n => s n * x) (z := fun _ => 0) (cs x) hd Ly (by simpa only [sub_zero] using hy') fun n t => by
      simp only [swirlFlow, whirl_pw, Matrix.cons_val_one, Matrix.cons_val_zero, pw, sub_zero]
      rw [show t ^ 2 + (x ^ 2 + (w - z n) ^ 2) = x ^ 2 + t ^ 2 + (w - z n) ^ 2 from by ring]; ring
  have W0 : Termwise (fun n t => swirlFlow (s n) (z n) x y t 0) w :=
    termwise_lines (c := fun n => -s n * y) (cn y) hd Lw hw' fun n t => by
      simp only [swirlFlow, whirl_pw, Matrix.cons_val_zero, pw]
      rw [add_comm ((t - z n) ^ 2)]; ring
  have W1 : Termwise (fun n t => swirlFlow (s n) (z n) x y t 1) w :=
    termwise_lines (c := fun n => s n * x) (cs x) hd Lw hw' fun n t => by
      simp only [swirlFlow, whirl_pw, Matrix.cons_val_one, Matrix.cons_val_zero, pw]
      rw [add_comm ((t - z n) ^ 2)]; ring
  fin_cases i
  · exact ⟨X0, Y0, W0⟩
  · exact ⟨X1, Y1, W1⟩
  · exact ⟨termwise_zero, termwise_zero, termwise_zero⟩

/-- A series of swirls that stay away from a point is a Stokes flow there, if each swirl is. -/
theorem sum_flows {s : ι → ℝ} {Z x y w : ℝ} (hs : Summable fun n => |s n|) (hz : ∀ n, |z n| ≤ Z) (hZ : 0 ≤ Z) (hd : 0 < d)
    (hx : ∀ᶠ t in 𝓝 x, ∀ n, d ^ 2 ≤ t ^ 2 + y ^ 2 + (w - z n) ^ 2)
    (hy : ∀ᶠ t in 𝓝 y, ∀ n, d ^ 2 ≤ x ^ 2 + t ^ 2 + (w - z n) ^ 2)
    (hw : ∀ᶠ t in 𝓝 w, ∀ n, d ^ 2 ≤ x ^ 2 + y ^ 2 + (t - z n) ^ 2)
    (hf : ∀ n, FlowsFreely (swirlFlow (s n) (z n)) x y w) :
    FlowsFreely (fun x y w i => ∑' n, swirlFlow (s n) (z n) x y w i) x y w ∧
    Smooth (fun x y w i => ∑' n, swirlFlow (s n) (z n) x y w i) x y w := by
  have all := sum_termwise hs hz hZ hd hx hy hw
  refine ⟨⟨?_, fun i => ?_⟩, fun i => ⟨(all i).1.2.2.2.2, (all i).2.1.2.2.2.2, (all i).2.2.2.2.2.2⟩⟩
  · have X0 := (all 0).1
    have Y1 := (all 1).2.1
    have W2 := (all 2).2.2
    rw [X0.2.2.1, Y1.2.2.1, W2.2.2.1, ← X0.1.tsum_add Y1.1, ← (X0.1.add Y1.1).tsum_add W2.1]
    rw [tsum_congr fun n => (hf n).1, tsum_zero]
  · obtain ⟨A, B, C⟩ := all i
    rw [A.2.2.2.1, B.2.2.2.1, C.2.2.2.1, ← A.2.1.tsum_add B.2.1, ← (A.2.1.add B.2.1).tsum_add C.2.1]
    rw [tsum_congr fun n => (hf n).2 i, tsum_zero]

end SD.Twist
