import Verif.Lemmas.ConvergeAll
import Mathlib.Analysis.ODE.ExistUnique

/-!
# Motions exist for a while
-/

set_option autoImplicit false

namespace SD.Lip

open Spec Filter Topology Set Move Nearby

section
variable {W : World} {S : Settings} {c : Config} {u : UserInput} {L : NDMat → Prop}

/-- From a clear start that is not at the range there is a motion for some time. -/
theorem follow (hC : Course W S c u L) (hx : S.extract = false) (hcl : Loose c.P)
    (hr : S.use_Minfinity_only = false → ¬ AtRange S.cutoff_factor c.P) : ∃ T > 0, ∃ X, Follows W S c T X := by
  set c0 : Locs c := ⟨c, ⟨rfl, rfl, rfl, rfl⟩⟩ with hc0
  set x0 : Fin c.P.Ns → Vec3 := posOf c0 with hx0
  have i1 : Inseparable c0 (rep x0) := Metric.inseparable_iff.mpr (by rw [locs_dist, posOf_rep, dist_self])
  have i2 : Inseparable (c0, c0, x0) (rep x0, rep x0, x0) := i1.prod (i1.prod (Inseparable.refl _))
  set f : (Fin c.P.Ns → Vec3) → Fin c.P.Ns → Vec3 := fun x => velAt W S c u (rep x, rep x, x) with hf
  have hrep : LL (rep (c := c)) x0 := ⟨1, univ, univ_mem, (LipschitzWith.of_dist_le_mul fun x y => by
    rw [rep_dist]; simp).lipschitzOnWith⟩
  have hll : LL f x0 := by
    refine LL.comp (g := velAt W S c u) (f := fun x => (rep x, rep x, x)) ((hC.vel_ll (d0 := c0) hcl hr x0).insep i2) ?_
    exact hrep.prodMk (hrep.prodMk (LL.id x0))
  have ev : ∀ᶠ x in 𝓝 x0, Loose (rep x).1.P ∧ (S.use_Minfinity_only = false → ¬ AtRange S.cutoff_factor (rep x).1.P) := by
    have t : Tendsto (rep (c := c)) (𝓝 x0) (𝓝 c0) := by
      rw [i1.nhds_eq]
      exact rep_continuous.continuousAt
    refine (t.eventually (clear_open hC.spheres (d0 := c0) hcl)).and ?_
    by_cases ho : S.use_Minfinity_only = false
    · exact (t.eventually (range_open hC.spheres (d0 := c0) (hr ho))).mono fun _ h _ => h
    · exact Eventually.of_forall fun _ h => absurd h ho
  obtain ⟨K, s, hs, hK⟩ := hll
  obtain ⟨a, ha, has⟩ := Metric.mem_nhds_iff.mp (inter_mem hs ev)
  set a' : NNReal := ⟨a / 2, by positivity⟩ with ha'
  have hball : Metric.closedBall x0 (a' : ℝ) ⊆ Metric.ball x0 a := Metric.closedBall_subset_ball (by
    show a / 2 < a; linarith)
  have hb : ∀ x ∈ Metric.closedBall x0 (a' : ℝ), x ∈ s := fun x hx => (has (hball hx)).1
  set B : NNReal := ‖f x0‖₊ + K * a' with hB
  have hbd : ∀ x ∈ Metric.closedBall x0 (a' : ℝ), ‖f x‖ ≤ B := by
    intro x hx'
    have h1 := hK.dist_le_mul x (hb x hx') x0 (mem_of_mem_nhds hs)
    have h2 := norm_le_norm_add_norm_sub' (f x) (f x0)
    rw [dist_eq_norm] at h1
    have h3 : (K : ℝ) * dist x x0 ≤ K * a' := mul_le_mul_of_nonneg_left hx' K.2
    show ‖f x‖ ≤ ‖f x0‖ + K * a'
    linarith
  set e : ℝ := a / 2 / (B + 1) with he
  have he0 : 0 < e := by positivity
  have pl : IsPicardLindelof (fun _ => f) (tmin := 0) (tmax := e) ⟨0, le_rfl, he0.le⟩ x0 a' 0 B K := by
    refine IsPicardLindelof.of_time_independent hbd (hK.mono hb) ?_
    show (B : ℝ) * max (e - 0) (0 - 0) ≤ a / 2 - 0
    rw [sub_zero, sub_zero, sub_zero, max_eq_left he0.le, he, mul_div_assoc', div_le_iff₀ (by positivity)]
    nlinarith [B.2]
  obtain ⟨α, h0, hα⟩ := pl.exists_eq_forall_mem_Icc_hasDerivWithinAt₀
  have hcont : ContinuousWithinAt α (Icc 0 e) 0 := (hα 0 ⟨le_rfl, he0.le⟩).continuousWithinAt
  have hnear : ∀ᶠ t in 𝓝[Icc 0 e] (0 : ℝ), α t ∈ Metric.ball x0 a := by
    refine hcont (Metric.isOpen_ball.mem_nhds ?_)
    rw [show α 0 = x0 from h0]
    exact Metric.mem_ball_self ha
  obtain ⟨T0, hT0, hT⟩ := Metric.mem_nhdsWithin_iff.mp hnear
  set T := min (T0 / 2) e with hTe
  have hTp : 0 < T := lt_min (by positivity) he0
  have hsub : Icc 0 T ⊆ Icc 0 e := Icc_subset_Icc le_rfl (min_le_right _ _)
  refine ⟨T, hTp, fun t i => if h : i < c.P.Ns then α t ⟨i, h⟩ else 0, fun i hi => ?_, fun t ht => ?_⟩
  · rw [dif_pos hi]
    exact congrFun h0 ⟨i, hi⟩
  have hmem : α t ∈ Metric.ball x0 a := hT ⟨by
    rw [Metric.mem_ball, Real.dist_eq, sub_zero, abs_of_nonneg ht.1]
    have := min_le_left (T0 / 2) e
    have := ht.2
    linarith, hsub ht⟩
  obtain ⟨g1, g2⟩ := (has hmem).2
  have hnt : ¬ Touching (rep (α t)).1.P := (clear_eventually hC.spheres g1).self_of_nhds
  obtain ⟨st, hst, -⟩ := serve_stage (S := stepped S S.timestep) hx (hC.serves _ _ (hC.ready _ (rep (α t)).2 hnt) (rep (α t)).2)
    (hC.ready _ (rep (α t)).2 hnt) (f := 0) (last := NDMat.zeros 1 1) (reg := true) (lv := Vel.blank) (fun _ h => by simp at h)
  refine ⟨(rep (α t)).1, st, (rep (α t)).2, fun i hi => ?_, g1, g2, hst, fun i hi => ?_⟩
  · simp [rep, hi]
  · obtain ⟨q', -, hq', -, -, hv⟩ := stage_vel hC.drag hC.same hx (hC.input (rep (α t)).2 hnt).2.2.2 (d := rep (α t)) (q := rep (α t)) hst
      (fun h => by simp at h)
    rw [hq' rfl] at hv
    simp only [dif_pos hi]
    have h1 := hasDerivWithinAt_pi.mp ((hα t (hsub ht)).mono hsub) ⟨i, hi⟩
    have h2 := congrFun (hv (α t)) ⟨i, hi⟩
    dsimp only at h2
    rw [h2]
    exact h1

/-- An initial part of a motion is a motion. -/
theorem follows_restrict {T T' : ℝ} {X : ℝ → ℕ → Vec3} (hF : Follows W S c T X) (h : T' ≤ T) : Follows W S c T' X := by
  have hsub : Icc 0 T' ⊆ Icc 0 T := Icc_subset_Icc le_rfl h
  refine ⟨hF.starts, fun t ht => ?_⟩
  obtain ⟨d, st, h1, h2, h3, h4, h5, h6⟩ := hF.moves t (hsub ht)
  exact ⟨d, st, h1, h2, h3, h4, h5, fun i hi => (h6 i hi).mono hsub⟩

/-- The end of a run is near the end of the motion. -/
theorem ends (hC : Course W S c u L) (hS : Runnable S 0) (ha : Arrows c) (h2d : S.fully_2d_problem = false) {T : ℝ}
    {X : ℝ → ℕ → Vec3} (hF : Follows W S c T X) (hT : 0 < T) : ∃ C : ℝ, 0 ≤ C ∧ ∃ n0 : ℕ, 0 < n0 ∧ ∀ n ≥ n0,
      ∀ bl tr : Vec3, bl = tr → ∃ s, runFrames W (stepped S (T / n)) bl tr (State.fresh c) n = some s ∧ s.error = false ∧
        ∀ i < c.P.Ns, ∀ k, |s.posdata.P.spherePos i k - X T i k| ≤ C / n := by
  obtain ⟨C, hC0, n0, hn0, h⟩ := converge hC hS ha h2d hF hT
  refine ⟨C, hC0, n0, hn0, fun n hn bl tr hb => ?_⟩
  obtain ⟨s, h1, h2, -, -, h3⟩ := h n hn n le_rfl bl tr hb
  have : (n : ℝ) * (T / n) = T := by
    have : (n : ℝ) ≠ 0 := by
      have : 0 < n := by omega
      positivity
    field_simp
  rw [this] at h3
  exact ⟨s, h1, h2, h3⟩

/-- There is only one motion. -/
theorem motion_unique (hC : Course W S c u L) (hS : Runnable S 0) (ha : Arrows c) (h2d : S.fully_2d_problem = false) {T : ℝ}
    {X X' : ℝ → ℕ → Vec3} (hF : Follows W S c T X) (hF' : Follows W S c T X') {t : ℝ} (ht : t ∈ Icc 0 T) {i : ℕ}
    (hi : i < c.P.Ns) : X t i = X' t i := by
  rcases ht.1.eq_or_lt with rfl | h0
  · rw [hF.starts i hi, hF'.starts i hi]
  obtain ⟨C, hC0, n0, hn0, h⟩ := ends hC hS ha h2d (follows_restrict hF ht.2) h0
  obtain ⟨C', hC0', n0', hn0', h'⟩ := ends hC hS ha h2d (follows_restrict hF' ht.2) h0
  funext k
  refine eq_of_abs_sub_le_all fun e he => ?_
  obtain ⟨n1, hn1⟩ := exists_nat_ge ((C + C') / e)
  set n := n0 + n0' + n1 with hn
  obtain ⟨s, h1, -, h3⟩ := h n (by omega) 0 0 rfl
  obtain ⟨s', h1', -, h3'⟩ := h' n (by omega) 0 0 rfl
  rw [h1] at h1'
  obtain rfl := Option.some.inj h1'
  have a1 := h3 i hi k
  have a2 := h3' i hi k
  have hn0 : (0 : ℝ) < n := by exact_mod_cast (show 0 < n by omega)
  have a3 : C / n + C' / n ≤ e := by
    rw [← add_div, div_le_iff₀ hn0]
    rw [div_le_iff₀ he] at hn1
    have : (n1 : ℝ) ≤ n := by exact_mod_cast (show n1 ≤ n by omega)
    nlinarith
  rw [abs_sub_comm] at a1
  have := abs_sub_le (X t i k) (s.posdata.P.spherePos i k) (X' t i k)
  linarith

end

end SD.Lip
