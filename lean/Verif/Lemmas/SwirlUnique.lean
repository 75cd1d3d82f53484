import Verif.Spec.Twist
import Mathlib.Analysis.Calculus.DerivativeTest
import Mathlib.Topology.MetricSpace.ProperSpace
import Mathlib.Analysis.Calculus.Deriv.Pow
import Mathlib.Tactic.Linarith
import Mathlib.Tactic.Positivity
import Mathlib.Tactic.FieldSimp

/-!
# The maximum principle
-/

set_option autoImplicit false

namespace SD.Twist

open Filter Topology Spec

theorem second_nonpos {f : ℝ → ℝ} {t : ℝ} (h : IsLocalMax f t) (hc : ContinuousAt f t) : deriv (deriv f) t ≤ 0 := by
  by_contra hn
  have hmin := isLocalMin_of_deriv_deriv_pos (not_le.1 hn) h.deriv_eq_zero hc
  have e : f =ᶠ[𝓝 t] fun _ => f t := by
    filter_upwards [h, hmin] with s h1 h2 using le_antisymm h1 h2
  have e2 : deriv f =ᶠ[𝓝 t] fun _ => 0 := by
    filter_upwards [e.eventuallyEq_nhds] with s hs
    rw [hs.deriv_eq, deriv_const]
  rw [e2.deriv_eq, deriv_const] at hn
  exact hn le_rfl

theorem twice_sub {f g : ℝ → ℝ} {t : ℝ} (hf : Twice f t) (hg : Twice g t) :
    Twice (fun v => f v - g v) t ∧ deriv (deriv fun v => f v - g v) t = deriv (deriv f) t - deriv (deriv g) t := by
  have e : (deriv fun v => f v - g v) =ᶠ[𝓝 t] fun v => deriv f v - deriv g v := by
    filter_upwards [hf.1, hg.1] with v h1 h2 using deriv_fun_sub h1 h2
  refine ⟨⟨?_, ?_⟩, ?_⟩
  · filter_upwards [hf.1, hg.1] with v h1 h2 using h1.sub h2
  · exact (hf.2.sub hg.2).congr_of_eventuallyEq e
  · rw [e.deriv_eq]; exact deriv_fun_sub hf.2 hg.2

/-- With a parabola added, the second derivative grows. -/
theorem twice_bowl {f : ℝ → ℝ} {t : ℝ} (hf : Twice f t) (η k : ℝ) :
    ContinuousAt (fun v => f v + η * (v ^ 2 + k)) t ∧ deriv (deriv fun v => f v + η * (v ^ 2 + k)) t = deriv (deriv f) t + 2 * η := by
  have d : ∀ v : ℝ, HasDerivAt (fun v : ℝ => η * (v ^ 2 + k)) (η * (2 * v)) v := fun v => by
    simpa using ((hasDerivAt_pow 2 v).add_const k).const_mul η
  have e : (deriv fun v => f v + η * (v ^ 2 + k)) =ᶠ[𝓝 t] fun v => deriv f v + η * (2 * v) := by
    filter_upwards [hf.1] with v h1 using (h1.hasDerivAt.add (d v)).deriv
  refine ⟨(hf.1.self_of_nhds.add (d t).differentiableAt).continuousAt, ?_⟩
  rw [e.deriv_eq]
  have d2 : HasDerivAt (fun v : ℝ => η * (2 * v)) (2 * η) t := by
    refine (((hasDerivAt_id t).const_mul 2).const_mul η).congr_deriv (by ring)
  exact (hf.2.hasDerivAt.add d2).deriv

/-- The maximum principle, outside of something. -/
theorem max_principle {f : ℝ → ℝ → ℝ → ℝ} {C D : Set (ℝ × ℝ × ℝ)} (hC : IsClosed C) (hD : IsOpen D) (hDC : D ⊆ C)
    (hc : ContinuousOn (fun p : ℝ × ℝ × ℝ => f p.1 p.2.1 p.2.2) C)
    (hs : ∀ x y w, (x, y, w) ∈ D → Twice (fun t => f t y w) x ∧ Twice (fun t => f x t w) y ∧ Twice (fun t => f x y t) w ∧
      deriv (deriv fun t => f t y w) x + deriv (deriv fun t => f x t w) y + deriv (deriv fun t => f x y t) w = 0)
    (hb : ∀ x y w, (x, y, w) ∈ C → (x, y, w) ∉ D → f x y w ≤ 0)
    (hi : ∀ ε, 0 < ε → ∃ R, ∀ x y w, (x, y, w) ∈ C → R ≤ x ^ 2 + y ^ 2 + w ^ 2 → f x y w ≤ ε) :
    ∀ x y w, (x, y, w) ∈ C → f x y w ≤ 0 := by
  intro x₀ y₀ w₀ h₀
  by_contra hn
  obtain ⟨m, hm⟩ : ∃ m, m = f x₀ y₀ w₀ := ⟨_, rfl⟩
  have hm0 : 0 < m := by rw [hm]; exact not_le.1 hn
  obtain ⟨R', hR'⟩ := hi (m / 4) (by positivity)
  obtain ⟨R, hRd⟩ : ∃ R, R = max R' 1 := ⟨_, rfl⟩
  have hR : ∀ x y w, (x, y, w) ∈ C → R ≤ x ^ 2 + y ^ 2 + w ^ 2 → f x y w ≤ m / 4 := fun x y w h1 h2 =>
    hR' x y w h1 (le_trans (by rw [hRd]; exact le_max_left _ _) h2)
  have hR0 : 0 < R := by rw [hRd]; exact lt_of_lt_of_le one_pos (le_max_right _ _)
  obtain ⟨K, hK⟩ : ∃ K : Set (ℝ × ℝ × ℝ), K = C ∩ {p | p.1 ^ 2 + p.2.1 ^ 2 + p.2.2 ^ 2 ≤ R} := ⟨_, rfl⟩
  have hKc : IsCompact K := by
    refine Metric.isCompact_of_isClosed_isBounded ?_ ?_
    · rw [hK]; exact hC.inter (isClosed_le (by fun_prop) continuous_const)
    · refine (Metric.isBounded_closedBall (x := (0 : ℝ × ℝ × ℝ)) (r := √R)).subset fun p hp => ?_
      rw [hK] at hp
      have h2 : p.1 ^ 2 + p.2.1 ^ 2 + p.2.2 ^ 2 ≤ R := hp.2
      rw [Metric.mem_closedBall, dist_zero_right, Prod.norm_def, Prod.norm_def]
      refine max_le (Real.abs_le_sqrt ?_) (max_le (Real.abs_le_sqrt ?_) (Real.abs_le_sqrt ?_)) <;>
        nlinarith [sq_nonneg p.1, sq_nonneg p.2.1, sq_nonneg p.2.2]
  have hx₀ : x₀ ^ 2 + y₀ ^ 2 + w₀ ^ 2 < R := by
    by_contra h
    have := hR x₀ y₀ w₀ h₀ (not_lt.1 h)
    rw [← hm] at this
    linarith
  have hp₀ : (x₀, y₀, w₀) ∈ K := by rw [hK]; exact ⟨h₀, hx₀.le⟩
  obtain ⟨η, hη⟩ : ∃ η, η = m / (4 * R) := ⟨_, rfl⟩
  have hη0 : 0 < η := by rw [hη]; positivity
  have hηR : η * R = m / 4 := by rw [hη]; field_simp
  obtain ⟨q, hqK, hq⟩ := hKc.exists_isMaxOn ⟨_, hp₀⟩
    (f := fun p : ℝ × ℝ × ℝ => f p.1 p.2.1 p.2.2 + η * (p.1 ^ 2 + p.2.1 ^ 2 + p.2.2 ^ 2))
    ((hc.mono (by rw [hK]; exact Set.inter_subset_left)).add (by fun_prop))
  obtain ⟨x, y, w⟩ := q
  rw [hK] at hqK
  obtain ⟨hqC, hqR⟩ := hqK
  have hqR : x ^ 2 + y ^ 2 + w ^ 2 ≤ R := hqR
  have top : m ≤ f x y w + η * (x ^ 2 + y ^ 2 + w ^ 2) := by
    have h := hq hp₀
    have h : f x₀ y₀ w₀ + η * (x₀ ^ 2 + y₀ ^ 2 + w₀ ^ 2) ≤ f x y w + η * (x ^ 2 + y ^ 2 + w ^ 2) := h
    have : 0 ≤ η * (x₀ ^ 2 + y₀ ^ 2 + w₀ ^ 2) := by positivity
    rw [← hm] at h
    linarith
  have low : η * (x ^ 2 + y ^ 2 + w ^ 2) ≤ m / 4 := by rw [← hηR]; exact mul_le_mul_of_nonneg_left hqR hη0.le
  have hqD : (x, y, w) ∈ D := by
    by_contra h
    linarith [hb x y w hqC h]
  have hlt : x ^ 2 + y ^ 2 + w ^ 2 < R := by
    by_contra h
    linarith [hR x y w hqC (not_lt.1 h)]
  have near : ∀ᶠ p : ℝ × ℝ × ℝ in 𝓝 (x, y, w), f p.1 p.2.1 p.2.2 + η * (p.1 ^ 2 + p.2.1 ^ 2 + p.2.2 ^ 2)
      ≤ f x y w + η * (x ^ 2 + y ^ 2 + w ^ 2) := by
    filter_upwards [hD.mem_nhds hqD, (by fun_prop : Continuous fun p : ℝ × ℝ × ℝ => p.1 ^ 2 + p.2.1 ^ 2 + p.2.2 ^ 2).continuousAt.eventually_lt_const
      (by exact hlt : _ < R)] with p h1 h2
    exact hq (by rw [hK]; exact ⟨hDC h1, h2.le⟩)
  obtain ⟨s1, s2, s3, s4⟩ := hs x y w hqD
  have b1 := twice_bowl s1 η (y ^ 2 + w ^ 2)
  have b2 := twice_bowl s2 η (x ^ 2 + w ^ 2)
  have b3 := twice_bowl s3 η (x ^ 2 + y ^ 2)
  have c1 := second_nonpos (f := fun v => f v y w + η * (v ^ 2 + (y ^ 2 + w ^ 2))) (t := x) (by
    have := ((by fun_prop : Continuous fun v : ℝ => (v, y, w)).tendsto x).eventually near
    filter_upwards [this] with v hv
    exact (by linarith : f v y w + η * (v ^ 2 + (y ^ 2 + w ^ 2)) ≤ f x y w + η * (x ^ 2 + (y ^ 2 + w ^ 2)))) b1.1
  have c2 := second_nonpos (f := fun v => f x v w + η * (v ^ 2 + (x ^ 2 + w ^ 2))) (t := y) (by
    have := ((by fun_prop : Continuous fun v : ℝ => (x, v, w)).tendsto y).eventually near
    filter_upwards [this] with v hv
    exact (by linarith : f x v w + η * (v ^ 2 + (x ^ 2 + w ^ 2)) ≤ f x y w + η * (y ^ 2 + (x ^ 2 + w ^ 2)))) b2.1
  have c3 := second_nonpos (f := fun v => f x y v + η * (v ^ 2 + (x ^ 2 + y ^ 2))) (t := w) (by
    have := ((by fun_prop : Continuous fun v : ℝ => (x, y, v)).tendsto w).eventually near
    filter_upwards [this] with v hv
    exact (by linarith : f x y v + η * (v ^ 2 + (x ^ 2 + y ^ 2)) ≤ f x y w + η * (w ^ 2 + (x ^ 2 + y ^ 2)))) b3.1
  rw [b1.2] at c1
  rw [b2.2] at c2
  rw [b3.2] at c3
  linarith

/-- Two fields without pressure that agree on the surfaces and far away agree. -/
theorem flow_le {u v : ℝ → ℝ → ℝ → Fin 3 → ℝ} {C D : Set (ℝ × ℝ × ℝ)} (hC : IsClosed C) (hD : IsOpen D) (hDC : D ⊆ C)
    (hu : ∀ i, ContinuousOn (fun p : ℝ × ℝ × ℝ => u p.1 p.2.1 p.2.2 i) C)
    (hv : ∀ i, ContinuousOn (fun p : ℝ × ℝ × ℝ => v p.1 p.2.1 p.2.2 i) C)
    (fu : ∀ x y w, (x, y, w) ∈ D → FlowsFreely u x y w ∧ Smooth u x y w)
    (fv : ∀ x y w, (x, y, w) ∈ D → FlowsFreely v x y w ∧ Smooth v x y w)
    (hb : ∀ x y w, (x, y, w) ∈ C → (x, y, w) ∉ D → u x y w = v x y w)
    (iu : ∀ ε, 0 < ε → ∃ R, ∀ x y w, (x, y, w) ∈ C → R ≤ x ^ 2 + y ^ 2 + w ^ 2 → ∀ i, |u x y w i| ≤ ε)
    (iv : ∀ ε, 0 < ε → ∃ R, ∀ x y w, (x, y, w) ∈ C → R ≤ x ^ 2 + y ^ 2 + w ^ 2 → ∀ i, |v x y w i| ≤ ε)
    {x y w : ℝ} (h : (x, y, w) ∈ C) (i : Fin 3) : u x y w i ≤ v x y w i := by
  refine sub_nonpos.1 (max_principle (f := fun x y w => u x y w i - v x y w i) hC hD hDC ((hu i).sub (hv i)) ?_ ?_ ?_ x y w h)
  · intro x y w hp
    obtain ⟨f1, s1⟩ := fu x y w hp
    obtain ⟨f2, s2⟩ := fv x y w hp
    have a := twice_sub (s1 i).1 (s2 i).1
    have b := twice_sub (s1 i).2.1 (s2 i).2.1
    have c := twice_sub (s1 i).2.2 (s2 i).2.2
    refine ⟨a.1, b.1, c.1, ?_⟩
    rw [a.2, b.2, c.2]
    linarith [f1.2 i, f2.2 i]
  · intro x y w h1 h2
    rw [hb x y w h1 h2, sub_self]
  · intro ε hε
    obtain ⟨R1, h1⟩ := iu (ε / 2) (by positivity)
    obtain ⟨R2, h2⟩ := iv (ε / 2) (by positivity)
    refine ⟨max R1 R2, fun x y w hp hR => ?_⟩
    have e1 := abs_le.1 (h1 x y w hp ((le_max_left _ _).trans hR) i)
    have e2 := abs_le.1 (h2 x y w hp ((le_max_right _ _).trans hR) i)
    linarith [e1.2, e2.1]

end SD.Twist
