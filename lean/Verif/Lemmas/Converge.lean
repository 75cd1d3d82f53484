import Verif.Lemmas.FlowLip
import Mathlib.Analysis.Calculus.MeanValue

/-!
# Estimates for time stepping along a motion
-/

set_option autoImplicit false

namespace SD.Lip

open Spec Filter Topology Set

section
variable {c : Config} {T : ℝ} {X : ℝ → Fin c.P.Ns → Vec3}

theorem rep_dist (x y : Fin c.P.Ns → Vec3) : dist (rep x) (rep y) = dist x y := by
  rw [locs_dist, posOf_rep, posOf_rep]

theorem rep_continuous : Continuous (rep (c := c)) :=
  (LipschitzWith.of_dist_le_mul (K := 1) fun x y => by rw [rep_dist]; simp).continuous

variable {V : Locs c × Locs c × (Fin c.P.Ns → Vec3) → Fin c.P.Ns → Vec3} {G : Locs c → Prop}

/-- Near the whole motion the velocities differ from those of the motion by no more than a multiple of the distance. -/
theorem calm_along (hX : ContinuousOn X (Icc 0 T)) (hV : ∀ t ∈ Icc 0 T, LL V (rep (X t), rep (X t), X t))
    (hG : ∀ t ∈ Icc 0 T, ∀ᶠ d in 𝓝 (rep (X t)), G d) :
    ∃ K ≥ 0, ∃ δ > 0, ∀ t ∈ Icc 0 T, ∀ r ≤ δ, ∀ (d q : Locs c) (z : Fin c.P.Ns → Vec3), dist (posOf d) (X t) ≤ r →
      dist (posOf q) (X t) ≤ r → dist z (X t) ≤ r →
      G d ∧ ‖V (d, q, z) - V (rep (X t), rep (X t), X t)‖ ≤ K * r := by
  refine (isCompact_Icc (a := (0 : ℝ)) (b := T)).induction_on (p := fun s => ∃ K ≥ 0, ∃ δ > 0, ∀ t ∈ s, ∀ r ≤ δ,
    ∀ (d q : Locs c) (z : Fin c.P.Ns → Vec3), dist (posOf d) (X t) ≤ r → dist (posOf q) (X t) ≤ r → dist z (X t) ≤ r →
      G d ∧ ‖V (d, q, z) - V (rep (X t), rep (X t), X t)‖ ≤ K * r) ?_ ?_ ?_ ?_
  · exact ⟨0, le_rfl, 1, one_pos, fun t ht => absurd ht (notMem_empty t)⟩
  · rintro s s' hs ⟨K, hK, δ, hδ, h⟩
    exact ⟨K, hK, δ, hδ, fun t ht => h t (hs ht)⟩
  · rintro s s' ⟨K, hK, δ, hδ, h⟩ ⟨K', hK', δ', hδ', h'⟩
    refine ⟨max K K', le_max_of_le_left hK, min δ δ', lt_min hδ hδ', fun t ht r hr d q z a1 a2 a3 => ?_⟩
    have r0 : 0 ≤ r := dist_nonneg.trans a1
    rcases ht with ht | ht
    · obtain ⟨g, b⟩ := h t ht r (hr.trans (min_le_left _ _)) d q z a1 a2 a3
      exact ⟨g, b.trans (mul_le_mul_of_nonneg_right (le_max_left _ _) r0)⟩
    · obtain ⟨g, b⟩ := h' t ht r (hr.trans (min_le_right _ _)) d q z a1 a2 a3
      exact ⟨g, b.trans (mul_le_mul_of_nonneg_right (le_max_right _ _) r0)⟩
  · intro t0 ht0
    obtain ⟨K, s, hs, hK⟩ := hV t0 ht0
    obtain ⟨e1, he1, hb⟩ := Metric.mem_nhds_iff.mp hs
    obtain ⟨e2, he2, hg⟩ := Metric.mem_nhds_iff.mp (hG t0 ht0)
    set e := min e1 e2 / 2 with he
    have epos : 0 < e := half_pos (lt_min he1 he2)
    have c1 : 2 * e ≤ e1 := by rw [he]; linarith [min_le_left e1 e2]
    have c2 : 2 * e ≤ e2 := by rw [he]; linarith [min_le_right e1 e2]
    refine ⟨X ⁻¹' Metric.ball (X t0) (e / 2), hX t0 ht0 (Metric.ball_mem_nhds _ (half_pos epos)), K, K.2, e, epos, ?_⟩
    intro t ht r hr d q z a1 a2 a3
    have ht : dist (X t) (X t0) < e / 2 := ht
    have r0 : 0 ≤ r := dist_nonneg.trans a1
    have dd : dist d (rep (X t0)) < 2 * e := by
      rw [locs_dist, posOf_rep]; linarith [dist_triangle (posOf d) (X t) (X t0)]
    have dq : dist q (rep (X t0)) < 2 * e := by
      rw [locs_dist, posOf_rep]; linarith [dist_triangle (posOf q) (X t) (X t0)]
    have dz : dist z (X t0) < 2 * e := by linarith [dist_triangle z (X t) (X t0)]
    refine ⟨hg (by rw [Metric.mem_ball]; linarith), ?_⟩
    rw [← dist_eq_norm]
    have m1 : (d, q, z) ∈ s := hb (by
      rw [Metric.mem_ball, Prod.dist_eq, Prod.dist_eq]
      exact max_lt (by linarith) (max_lt (by linarith) (by linarith)))
    have m2 : (rep (X t), rep (X t), X t) ∈ s := hb (by
      rw [Metric.mem_ball, Prod.dist_eq, Prod.dist_eq]
      dsimp only
      rw [rep_dist]
      exact max_lt (by linarith) (max_lt (by linarith) (by linarith)))
    refine (hK.dist_le_mul _ m1 _ m2).trans (mul_le_mul_of_nonneg_left ?_ K.2)
    rw [Prod.dist_eq, Prod.dist_eq]
    dsimp only
    rw [locs_dist, locs_dist, posOf_rep]
    exact max_le a1 (max_le a2 a3)

/-- The motion is Lipschitz, and what a straight step misses is of second order. -/
theorem straight (hV : ∀ t ∈ Icc 0 T, LL V (rep (X t), rep (X t), X t))
    (hX : ∀ t ∈ Icc 0 T, HasDerivWithinAt X (V (rep (X t), rep (X t), X t)) (Icc 0 T) t) :
    ∃ M ≥ 0, (∀ t ∈ Icc 0 T, ‖V (rep (X t), rep (X t), X t)‖ ≤ M) ∧
      ∀ s ∈ Icc 0 T, ∀ t ∈ Icc 0 T, dist (X s) (X t) ≤ M * |s - t| := by
  have hc : ContinuousOn X (Icc 0 T) := fun t ht => (hX t ht).continuousWithinAt
  have hv : ContinuousOn (fun t => V (rep (X t), rep (X t), X t)) (Icc 0 T) := by
    intro t ht
    refine ContinuousAt.comp_continuousWithinAt (g := V) (f := fun t => (rep (X t), rep (X t), X t)) (hV t ht).continuousAt ?_
    have h1 : ContinuousWithinAt (fun t => rep (X t)) (Icc 0 T) t :=
      rep_continuous.continuousAt.comp_continuousWithinAt (hc t ht)
    exact h1.prodMk (h1.prodMk (hc t ht))
  obtain ⟨M, hM⟩ := isCompact_Icc.exists_bound_of_continuousOn hv
  refine ⟨max M 0, le_max_right _ _, fun t ht => (hM t ht).trans (le_max_left _ _), fun s hs t ht => ?_⟩
  rw [dist_eq_norm, ← Real.norm_eq_abs]
  exact (convex_Icc 0 T).norm_image_sub_le_of_norm_hasDerivWithin_le (fun x hx => hX x hx)
    (fun x hx => (hM x hx).trans (le_max_left _ _)) ht hs

theorem straight_step {K δ M : ℝ} (hK : 0 ≤ K) (hM : 0 ≤ M)
    (hX : ∀ t ∈ Icc 0 T, HasDerivWithinAt X (V (rep (X t), rep (X t), X t)) (Icc 0 T) t)
    (hcalm : ∀ t ∈ Icc 0 T, ∀ r ≤ δ, ∀ (d q : Locs c) (z : Fin c.P.Ns → Vec3), dist (posOf d) (X t) ≤ r →
      dist (posOf q) (X t) ≤ r → dist z (X t) ≤ r → ‖V (d, q, z) - V (rep (X t), rep (X t), X t)‖ ≤ K * r)
    (hL : ∀ s ∈ Icc 0 T, ∀ t ∈ Icc 0 T, dist (X s) (X t) ≤ M * |s - t|) {t h : ℝ} (ht : t ∈ Icc 0 T) (h0 : 0 ≤ h)
    (hth : t + h ∈ Icc 0 T) (hh : M * h ≤ δ) :
    ‖X (t + h) - X t - h • V (rep (X t), rep (X t), X t)‖ ≤ K * (M * h) * h ∧
    ‖V (rep (X (t + h)), rep (X (t + h)), X (t + h)) - V (rep (X t), rep (X t), X t)‖ ≤ K * (M * h) := by
  have near : ∀ s ∈ Icc t (t + h), ‖V (rep (X s), rep (X s), X s) - V (rep (X t), rep (X t), X t)‖ ≤ K * (M * h) := by
    intro s hs
    have hs' : s ∈ Icc 0 T := ⟨ht.1.trans hs.1, hs.2.trans hth.2⟩
    have d1 : dist (X s) (X t) ≤ M * h := (hL s hs' t ht).trans (mul_le_mul_of_nonneg_left (by
      rw [abs_of_nonneg (by linarith [hs.1])]; linarith [hs.2]) hM)
    exact hcalm t ht _ hh _ _ _ (by rw [posOf_rep]; exact d1) (by rw [posOf_rep]; exact d1) d1
  refine ⟨?_, near _ ⟨by linarith, le_rfl⟩⟩
  have sub : Icc t (t + h) ⊆ Icc 0 T := Icc_subset_Icc ht.1 hth.2
  have key := (convex_Icc t (t + h)).norm_image_sub_le_of_norm_hasDerivWithin_le
    (f := fun s => X s - s • V (rep (X t), rep (X t), X t))
    (f' := fun s => V (rep (X s), rep (X s), X s) - V (rep (X t), rep (X t), X t)) (C := K * (M * h))
    (fun x hx => ((hX x (sub hx)).mono sub).sub (by
      have := ((hasDerivAt_id x).smul_const (V (rep (X t), rep (X t), X t))).hasDerivWithinAt (s := Icc t (t + h))
      simpa using this))
    (fun x hx => near x hx) (left_mem_Icc.mpr (by linarith)) (right_mem_Icc.mpr (by linarith))
  have e : X (t + h) - (t + h) • V (rep (X t), rep (X t), X t) - (X t - t • V (rep (X t), rep (X t), X t))
      = X (t + h) - X t - h • V (rep (X t), rep (X t), X t) := by
    rw [add_smul]; abel
  rw [e, show t + h - t = h by ring, Real.norm_of_nonneg h0] at key
  exact key

end

/-- The growth of errors. -/
noncomputable def bound (A D h : ℝ) (m : ℕ) : ℝ := D * h * (m * h) * Real.exp (A * (m * h))

theorem bound_nonneg {A D h : ℝ} (hD : 0 ≤ D) (hh : 0 ≤ h) (m : ℕ) : 0 ≤ bound A D h m := by
  unfold bound
  positivity

theorem bound_step {A D h : ℝ} (hA : 0 ≤ A) (hD : 0 ≤ D) (hh : 0 ≤ h) (m : ℕ) :
    bound A D h m + h * (A * bound A D h m + D * h) ≤ bound A D h (m + 1) := by
  have e : bound A D h (m + 1) = D * h * (m * h + h) * (Real.exp (A * (m * h)) * Real.exp (A * h)) := by
    unfold bound
    rw [← Real.exp_add]
    push_cast
    ring_nf
  have h1 : 1 + A * h ≤ Real.exp (A * h) := by linarith [Real.add_one_le_exp (A * h)]
  have h2 : 1 ≤ Real.exp (A * (m * h)) := Real.one_le_exp (by positivity)
  rw [e]
  have h3 : D * h * (m * h + h) * (Real.exp (A * (m * h)) * (1 + A * h))
      ≤ D * h * (m * h + h) * (Real.exp (A * (m * h)) * Real.exp (A * h)) := by
    refine mul_le_mul_of_nonneg_left (mul_le_mul_of_nonneg_left h1 (by positivity)) (by positivity)
  refine le_trans ?_ h3
  unfold bound
  have h4 : D * h * h * 1 ≤ D * h * h * (Real.exp (A * (m * h)) * (1 + A * h)) := by
    refine mul_le_mul_of_nonneg_left ?_ (by positivity)
    nlinarith [mul_nonneg hA hh]
  nlinarith

theorem bound_mono {A D h : ℝ} (hA : 0 ≤ A) (hD : 0 ≤ D) (hh : 0 ≤ h) (m : ℕ) : bound A D h m ≤ bound A D h (m + 1) := by
  have := bound_step hA hD hh m
  have b := bound_nonneg (A := A) hD hh m
  nlinarith [mul_nonneg hh (mul_nonneg hA b), mul_nonneg hh (mul_nonneg hD hh)]

theorem bound_le {A D h T : ℝ} (hA : 0 ≤ A) (hD : 0 ≤ D) (hh : 0 ≤ h) {m : ℕ} (hm : m * h ≤ T) :
    bound A D h m ≤ D * T * Real.exp (A * T) * h := by
  unfold bound
  have h0 : 0 ≤ m * h := by positivity
  have h1 : Real.exp (A * (m * h)) ≤ Real.exp (A * T) := Real.exp_le_exp.mpr (mul_le_mul_of_nonneg_left hm hA)
  calc D * h * (m * h) * Real.exp (A * (m * h)) ≤ D * h * T * Real.exp (A * T) :=
        mul_le_mul (mul_le_mul_of_nonneg_left hm (by positivity)) h1 (Real.exp_pos _).le
          (mul_nonneg (by positivity) (h0.trans hm))
    _ = _ := by ring

end SD.Lip
