import Verif.Lemmas.ConvergeRun

/-!
# Convergence to the motion
-/

set_option autoImplicit false

namespace SD.Lip

open Spec Filter Topology Set Move

section
variable {W : World} {S : Settings} {c : Config} {u : UserInput} {L : NDMat → Prop} {T : ℝ} {X : ℝ → ℕ → Vec3}

theorem LL.insep {α β : Type} [PseudoMetricSpace α] [PseudoMetricSpace β] {f : α → β} {a b : α} (h : LL f a)
    (hab : Inseparable a b) : LL f b := by
  obtain ⟨K, s, hs, hK⟩ := h
  exact ⟨K, s, hab.nhds_eq ▸ hs, hK⟩

theorem LL.insep_eq {α β : Type} [PseudoMetricSpace α] [MetricSpace β] {f : α → β} {a b : α} (h : LL f a)
    (hab : Inseparable a b) : f a = f b := by
  obtain ⟨K, s, hs, hK⟩ := h
  have h1 := hK.dist_le_mul a (mem_of_mem_nhds hs) b (mem_of_mem_nhds (hab.nhds_eq ▸ hs))
  rw [Metric.inseparable_iff.mp hab, mul_zero] at h1
  exact dist_le_zero.mp h1

/-- The velocities along a motion, in terms of `velAt`. -/
theorem along (hC : Course W S c u L) (hx : S.extract = false) (hF : Follows W S c T X) {t : ℝ} (ht : t ∈ Icc 0 T) :
    u.bl = u.tr ∧ LL (velAt W S c u) (rep fun i : Fin c.P.Ns => X t i, rep fun i : Fin c.P.Ns => X t i, fun i : Fin c.P.Ns => X t i) ∧
    (∀ᶠ d in 𝓝 (rep fun i : Fin c.P.Ns => X t i), Off S d.1.P) ∧
    HasDerivWithinAt (fun t => fun i : Fin c.P.Ns => X t i)
      (velAt W S c u (rep fun i : Fin c.P.Ns => X t i, rep fun i : Fin c.P.Ns => X t i, fun i : Fin c.P.Ns => X t i)) (Icc 0 T) t := by
  obtain ⟨d, st, hd, hp, hcl, hr, hst, hder⟩ := hF.moves t ht
  set Y : Fin c.P.Ns → Vec3 := fun i => X t i with hY
  set dd : Locs c := ⟨d, hd⟩ with hdd
  have e0 : posOf dd = Y := by
    funext i
    exact hp i i.2
  have hev := clear_eventually hC.spheres (d0 := dd) hcl
  have hub := (hC.input hd hev.self_of_nhds).2.2.2
  have i1 : Inseparable dd (rep Y) := Metric.inseparable_iff.mpr (by rw [locs_dist, posOf_rep, e0, dist_self])
  have hll := hC.vel_ll (d0 := dd) hcl hr Y
  have i2 : Inseparable (dd, dd, Y) (rep Y, rep Y, Y) := i1.prod (i1.prod (Inseparable.refl _))
  refine ⟨hub, hll.insep i2, i1.nhds_eq ▸ off_open hC.spheres (d0 := dd) ⟨hcl, hr⟩, ?_⟩
  rw [← hll.insep_eq i2]
  obtain ⟨q', -, hq', -, -, hv⟩ := stage_vel (d := dd) (q := dd) hC.drag hC.same hx hub (h := S.timestep) hst (fun h => by simp at h)
  rw [hq' rfl] at hv
  rw [← hv Y, hasDerivWithinAt_pi]
  exact fun i => hder i i.2

/-- The runs converge to the motion, with an error of the order of the time step. -/
theorem converge (hC : Course W S c u L) (hS : Runnable S 0) (ha : Arrows c) (h2d : S.fully_2d_problem = false)
    (hF : Follows W S c T X) (hT : 0 < T) :
    ∃ C : ℝ, 0 ≤ C ∧ ∃ n0 : ℕ, 0 < n0 ∧ ∀ n ≥ n0, ∀ m ≤ n, ∀ bl tr : Vec3, bl = tr →
      ∃ s, runFrames W (stepped S (T / n)) bl tr (State.fresh c) m = some s ∧ s.error = false ∧ SameSizes c s.posdata ∧
        Clears W (stepped S (T / n)) bl tr c n ∧ ∀ i < c.P.Ns, ∀ k, |s.posdata.P.spherePos i k - X (m * (T / n)) i k| ≤ C / n := by
  set Y : ℝ → Fin c.P.Ns → Vec3 := fun t i => X t i with hY
  have A := fun t (ht : t ∈ Icc 0 T) => along hC hS.extract hF ht
  have hder : ∀ t ∈ Icc 0 T, HasDerivWithinAt Y (velAt W S c u (rep (Y t), rep (Y t), Y t)) (Icc 0 T) t :=
    fun t ht => (A t ht).2.2.2
  have hLL : ∀ t ∈ Icc 0 T, LL (velAt W S c u) (rep (Y t), rep (Y t), Y t) := fun t ht => (A t ht).2.1
  have hcont : ContinuousOn Y (Icc 0 T) := fun t ht => (hder t ht).continuousWithinAt
  obtain ⟨K, hK, δ, hδ, hcalm⟩ := calm_along (G := fun d => Off S d.1.P) hcont hLL (fun t ht => (A t ht).2.2.1)
  obtain ⟨M, hM, hspeed, hlip⟩ := straight hLL hder
  set N := M + K * δ with hN
  have hN0 : 0 ≤ N := by positivity
  set D := 3 * K * (N * (S.invert_m_every + 1)) + K * M with hD
  have hD0 : 0 ≤ D := by positivity
  set B := D * T * Real.exp (3 * K * T) + N * (S.invert_m_every + 1) + M with hB
  obtain ⟨n1, hn1⟩ := exists_nat_ge (T * B / δ)
  refine ⟨D * T * Real.exp (3 * K * T) * T, by positivity, n1 + 1, by omega, fun n hn m hm bl tr hb => ?_⟩
  have hn0 : (0 : ℝ) < n := by exact_mod_cast (show 0 < n by omega)
  set h := T / n with hh
  have h0 : 0 < h := div_pos hT hn0
  have hBh : B * h ≤ δ := by
    have h1 : T * B / δ ≤ n := hn1.trans (by exact_mod_cast (show n1 ≤ n by omega))
    rw [div_le_iff₀ hδ] at h1
    rw [hh, mul_div_assoc', div_le_iff₀ hn0]
    linarith
  have hE : 0 ≤ D * T * Real.exp (3 * K * T) := by positivity
  have hNQ : 0 ≤ N * (S.invert_m_every + 1) := by positivity
  have hnh : (n : ℝ) * h = T := by rw [hh]; field_simp
  have hmT : ∀ m ≤ n, (m : ℝ) * h ≤ T := fun m hm => by
    rw [← hnh]
    exact mul_le_mul_of_nonneg_right (by exact_mod_cast hm) h0.le
  have near : Near W S c u T Y (fun t => velAt W S c u (rep (Y t), rep (Y t), Y t)) K δ M h := by
    refine ⟨fun t ht => ⟨hC.drag, hC.same, hS.extract, (A t ht).1, hC.any, hC.spheres, hcalm t ht⟩, ?_, hK, hM, hδ.le, h0.le,
      hspeed, hlip, fun t ht ht' => ?_, hS, h2d⟩
    · funext i
      exact hF.starts i i.2
    · exact straight_step hK hM hder (fun t ht r hr d q z a1 a2 a3 => (hcalm t ht r hr d q z a1 a2 a3).2) hlip ht h0.le ht'
        (by nlinarith)
  have hreach : ∀ m ≤ n, reach S K δ M h m ≤ δ := fun m hm => by
    have h1 := bound_le (A := 3 * K) (by positivity) hD0 h0.le (hmT m hm)
    show bound (3 * K) D h m + N * (S.invert_m_every + 1) * h ≤ δ
    nlinarith
  obtain ⟨s, hs, hI⟩ := near.run hC ha hnh.le hreach hb hm
  obtain ⟨c0, e0, hp⟩ := hI.pos
  refine ⟨s, hs, hI.error, e0 ▸ c0.2, near.clears hnh.le hreach hb, fun i hi k => ?_⟩
  have h1 := bound_le (A := 3 * K) (by positivity) hD0 h0.le (hmT m hm)
  have h2 : dist (posOf c0) (Y (m * h)) ≤ D * T * Real.exp (3 * K * T) * T / n := by
    refine (hp.trans h1).trans (le_of_eq ?_)
    rw [hh]; ring
  have h3 := (dist_le_pi_dist (posOf c0 ⟨i, hi⟩) (Y (m * h) ⟨i, hi⟩) k).trans ((dist_le_pi_dist _ _ _).trans h2)
  rw [Real.dist_eq] at h3
  rw [← e0]
  exact h3

end

end SD.Lip
