import Verif.Spec.Depend
import Verif.Lemmas.ConvergeStep

/-!
# A run near a motion
-/

set_option autoImplicit false

namespace SD.Lip

open Spec Filter Topology Set Move

/-- What the induction over the frames supposes. -/
structure Near (W : World) (S : Settings) (c : Config) (u : UserInput) (T : ℝ) (X : ℝ → Fin c.P.Ns → Vec3)
    (v : ℝ → Fin c.P.Ns → Vec3) (K δ M h : ℝ) : Prop where
  calm : ∀ t ∈ Icc 0 T, Calm W S c u (X t) (v t) K δ
  start : X 0 = fun i : Fin c.P.Ns => c.P.spherePos i
  K0 : 0 ≤ K
  M0 : 0 ≤ M
  δ0 : 0 ≤ δ
  h0 : 0 ≤ h
  speed : ∀ t ∈ Icc 0 T, ‖v t‖ ≤ M
  lip : ∀ s ∈ Icc 0 T, ∀ t ∈ Icc 0 T, dist (X s) (X t) ≤ M * |s - t|
  straight : ∀ t ∈ Icc 0 T, t + h ∈ Icc 0 T → ‖X (t + h) - X t - h • v t‖ ≤ K * (M * h) * h ∧ ‖v (t + h) - v t‖ ≤ K * (M * h)
  runnable : Runnable S 0
  flat : S.fully_2d_problem = false

/-- The distance within which everything in frame `m` happens. -/
noncomputable def reach (S : Settings) (K δ M h : ℝ) (m : ℕ) : ℝ :=
  bound (3 * K) (3 * K * ((M + K * δ) * (S.invert_m_every + 1)) + K * M) h m + (M + K * δ) * (S.invert_m_every + 1) * h

theorem age_step {m Q : ℕ} (hQ : 0 < Q) (hm : 0 < m) (hmq : m % Q ≠ 0) : m % Q = (m - 1) % Q + 1 := by
  obtain ⟨k, rfl⟩ : ∃ k, m = k + 1 := ⟨m - 1, by omega⟩
  rw [Nat.add_sub_cancel]
  have h1 := Nat.mod_lt k hQ
  rw [Nat.add_mod] at hmq ⊢
  by_cases hq1 : Q = 1
  · exact absurd (by rw [hq1]; exact Nat.mod_one _) hmq
  by_cases hlt : k % Q + 1 < Q
  · rw [Nat.mod_eq_of_lt (show 1 < Q by omega), Nat.mod_eq_of_lt hlt]
  · exact absurd (by rw [Nat.mod_eq_of_lt (show 1 < Q by omega), show k % Q + 1 = Q by omega, Nat.mod_self]) hmq

section
variable {W : World} {S : Settings} {c : Config} {u : UserInput} {T : ℝ} {X v : ℝ → Fin c.P.Ns → Vec3} {K δ M h : ℝ}

/-- What holds at the start of frame `m`. -/
structure Inv (W : World) (S : Settings) (c : Config) (u : UserInput) (X v : ℝ → Fin c.P.Ns → Vec3) (K δ M h : ℝ) (m : ℕ)
    (s : State) : Prop where
  error : s.error = false
  pos : ∃ c0 : Locs c, c0.1 = s.posdata ∧ dist (posOf c0) (X (m * h)) ≤
    bound (3 * K) (3 * K * ((M + K * δ) * (S.invert_m_every + 1)) + K * M) h m
  cache : 0 < m → ∃ q : Locs c, (generate_Minfinity q.1.P u.mu S.bead_bead_interactions).inv = some s.cache ∧
    dist (posOf q) (X (m * h)) ≤ bound (3 * K) (3 * K * ((M + K * δ) * (S.invert_m_every + 1)) + K * M) h m
      + M * (((m - 1) % S.invert_m_every + 1 : ℕ) : ℝ) * h
  vel : 0 < m → S.scheme = .ab2 → ‖(fun i : Fin c.P.Ns => s.lastVel.Ua i) - v (m * h)‖ ≤ 2 * K * reach S K δ M h m

variable (H : Near W S c u T X v K δ M h)
include H

theorem Near.frame (m : ℕ) (hm : ((m + 1 : ℕ) : ℝ) * h ≤ T) (hR : reach S K δ M h m ≤ δ) {s : State}
    (hI : Inv W S c u X v K δ M h m s) {bl tr : Vec3} (hb : bl = tr) :
    (∀ d, Visits W (stepped S h) bl tr m s d → SameSizes c d ∧ Off S d.P) ∧
    ∀ s', generate_frame W (stepped S h) bl tr m s = some s' → Inv W S c u X v K δ M h (m + 1) s' := by
  have hh := H.h0
  have hQ : 0 < S.invert_m_every := Nat.pos_of_ne_zero H.runnable.every
  set Q := S.invert_m_every with hQe
  set N := M + K * δ with hNe
  have hK := H.K0
  have hM := H.M0
  have hKδ : 0 ≤ K * δ := mul_nonneg hK H.δ0
  have hN0 : 0 ≤ N := by linarith
  set D := 3 * K * (N * (Q + 1)) + K * M with hDe
  have hD : 0 ≤ D := by positivity
  have hA : 0 ≤ 3 * K := by positivity
  set b := bound (3 * K) D h m with hbe
  have hb0 : 0 ≤ b := bound_nonneg hD hh m
  have hRe : reach S K δ M h m = b + N * (Q + 1) * h := rfl
  set R := reach S K δ M h m with hRs
  have hNh : 0 ≤ N * h := mul_nonneg hN0 hh
  have hNQ : 0 ≤ N * h * Q := mul_nonneg hNh (Nat.cast_nonneg _)
  have hbR : b ≤ R := by rw [hRe]; nlinarith
  have hNR : b + N * h ≤ R := by rw [hRe]; nlinarith
  have hR0 : 0 ≤ R := hb0.trans hbR
  have hcast : ((m + 1 : ℕ) : ℝ) * h = m * h + h := by push_cast; ring
  have ht : (m : ℝ) * h ∈ Icc 0 T := ⟨by positivity, by linarith⟩
  have ht' : (m : ℝ) * h + h ∈ Icc 0 T := ⟨by positivity, by linarith⟩
  set t := (m : ℝ) * h with hte
  have C := H.calm t ht
  have hv : ‖v t‖ + K * R ≤ N := by
    have := mul_le_mul_of_nonneg_left hR hK
    linarith [H.speed t ht]
  obtain ⟨c0, hs, hc0⟩ := hI.pos
  have hreg0 : regen S m = false → 0 < m ∧ m % Q ≠ 0 := by
    intro hr
    unfold regen at hr
    rw [H.runnable.start] at hr
    simp at hr
    exact ⟨Nat.pos_of_ne_zero hr.2, hr.1⟩
  have hage : 0 < m → (((m - 1) % Q + 1 : ℕ) : ℝ) ≤ Q := fun _ => by
    exact_mod_cast Nat.mod_lt (m - 1) hQ
  obtain ⟨q, hi, hqd⟩ : ∃ q : Locs c, (regen S m = false →
      (generate_Minfinity q.1.P u.mu S.bead_bead_interactions).inv = some s.cache) ∧
      (regen S m = false → dist (posOf q) (X t) ≤ b + M * (((m - 1) % Q + 1 : ℕ) : ℝ) * h) := by
    cases hr : regen S m
    · obtain ⟨q, h1, h2⟩ := hI.cache (hreg0 hr).1
      exact ⟨q, fun _ => h1, fun _ => h2⟩
    · exact ⟨c0, by simp, by simp⟩
  have hq : regen S m = false → dist (posOf q) (X t) ≤ R := fun hr => by
    refine (hqd hr).trans ?_
    have h1 := hage (hreg0 hr).1
    have h2 : M * (((m - 1) % Q + 1 : ℕ) : ℝ) * h ≤ N * Q * h :=
      mul_le_mul_of_nonneg_right (mul_le_mul (by linarith) h1 (Nat.cast_nonneg _) hN0) hh
    rw [hRe]
    nlinarith
  refine ⟨fun d hd => visits_near C hR hb hs hc0 hq hi hv hNR hbR hh hd, fun s' hf => ?_⟩
  obtain ⟨-, r, hr, e1, e2, e3, e4, -⟩ := frame_some hI.error hf
  obtain ⟨hsz, w, q', g1, g2, g3, g4, g5, g6, g7⟩ := step_near C hR hb H.flat H.runnable.start hs hc0 hq hi hI.vel hK hR0 hv hNR
    hbR hh hr
  have hb1 : b ≤ bound (3 * K) D h (m + 1) := bound_mono hA hD hh m
  obtain ⟨k1, k2⟩ := H.straight t ht ht'
  have kd : dist (X t) (X (t + h)) ≤ M * h := by
    have := H.lip t ht (t + h) ht'
    rwa [show t - (t + h) = -h by ring, abs_neg, abs_of_nonneg hh] at this
  refine ⟨by rw [e2, g1], ⟨⟨r.new, hsz⟩, e1.symm, ?_⟩, fun _ => ⟨q', by rw [e3]; exact g4, ?_⟩, fun _ hab => ?_⟩
  · rw [hcast, g2, dist_eq_norm, show posOf c0 + h • w - X (t + h)
      = (posOf c0 - X t) + h • (w - v t) - (X (t + h) - X t - h • v t) by rw [smul_sub]; abel]
    refine (norm_sub_le _ _).trans ?_
    have n1 := norm_add_le (posOf c0 - X t) (h • (w - v t))
    rw [norm_smul, Real.norm_of_nonneg hh, ← dist_eq_norm] at n1
    have n2 : h * ‖w - v t‖ ≤ h * (3 * K * R) := mul_le_mul_of_nonneg_left g3 hh
    have n3 := bound_step hA hD hh m
    rw [← hbe] at n3
    have n4 : h * (3 * K * R) + K * (M * h) * h = h * (3 * K * b + D * h) := by rw [hRe, hDe]; ring
    show _ ≤ bound (3 * K) D h (m + 1)
    linarith
  · rw [hcast]
    show _ ≤ bound (3 * K) D h (m + 1) + M * (((m + 1 - 1) % Q + 1 : ℕ) : ℝ) * h
    have n1 := dist_triangle (posOf q') (X t) (X (t + h))
    rw [Nat.add_sub_cancel]
    cases hrg : regen S m
    · have hmq := (hreg0 hrg).2
      have e : m % Q = (m - 1) % Q + 1 := age_step hQ (hreg0 hrg).1 hmq
      have h2 := hqd hrg
      rw [← g6 hrg, ← e] at h2
      push_cast
      nlinarith
    · rw [g5 hrg] at n1 ⊢
      have : 0 ≤ M * ((m % Q : ℕ) : ℝ) * h := by positivity
      push_cast
      nlinarith
  · rw [hcast, e4]
    have n1 := g7 hab
    have n2 := norm_add_le ((fun i : Fin c.P.Ns => r.lastVel.Ua i) - v t) (v t - v (t + h))
    rw [sub_add_sub_cancel, norm_sub_rev (v t)] at n2
    have n3 : K * (M * h) ≤ K * R := mul_le_mul_of_nonneg_left (by nlinarith) hK
    have n4 : R ≤ reach S K δ M h (m + 1) := by
      rw [hRe]
      show _ ≤ bound (3 * K) D h (m + 1) + N * (Q + 1) * h
      linarith
    have n5 := mul_le_mul_of_nonneg_left n4 hK
    linarith

theorem Near.inv {n : ℕ} (hn : (n : ℝ) * h ≤ T) (hR : ∀ m ≤ n, reach S K δ M h m ≤ δ) {bl tr : Vec3} (hb : bl = tr) :
    ∀ m ≤ n, ∀ s, runFrames W (stepped S h) bl tr (State.fresh c) m = some s → Inv W S c u X v K δ M h m s := by
  intro m
  induction m with
  | zero =>
    intro _ s hs
    obtain rfl := Option.some.inj hs
    refine ⟨rfl, ⟨⟨c, ⟨rfl, rfl, rfl, rfl⟩⟩, rfl, ?_⟩, fun h => absurd h (by omega), fun h => absurd h (by omega)⟩
    rw [show ((0 : ℕ) : ℝ) * h = 0 by simp, H.start]
    show dist (fun i : Fin c.P.Ns => c.P.spherePos i) _ ≤ _
    rw [dist_self]
    have := H.K0; have := H.M0; have := H.δ0
    exact bound_nonneg (by positivity) H.h0 0
  | succ m ih =>
    intro hm s hs
    obtain ⟨s1, h1, h2⟩ := run_prev hs
    rw [show (stepped S h).start = 0 from H.runnable.start, Nat.zero_add] at h2
    refine (H.frame m ?_ (hR m (by omega)) (ih (by omega) s1 h1) hb).2 s h2
    have : ((m + 1 : ℕ) : ℝ) ≤ n := by exact_mod_cast hm
    nlinarith [mul_le_mul_of_nonneg_right this H.h0]

theorem Near.clears {n : ℕ} (hn : (n : ℝ) * h ≤ T) (hR : ∀ m ≤ n, reach S K δ M h m ≤ δ) {bl tr : Vec3} (hb : bl = tr) :
    Clears W (stepped S h) bl tr c n := fun j hj s hs d hd => by
  have hle : ((j + 1 : ℕ) : ℝ) ≤ n := by exact_mod_cast hj
  exact ((H.frame j (by nlinarith [mul_le_mul_of_nonneg_right hle H.h0]) (hR j hj.le) (H.inv hn hR hb j hj.le s hs) hb).1 d hd).2

theorem Near.run {L : NDMat → Prop} (hC : Course W S c u L) (ha : Arrows c) {n : ℕ} (hn : (n : ℝ) * h ≤ T)
    (hR : ∀ m ≤ n, reach S K δ M h m ≤ δ) {bl tr : Vec3} (hb : bl = tr) {m : ℕ} (hm : m ≤ n) :
    ∃ s, runFrames W (stepped S h) bl tr (State.fresh c) m = some s ∧ Inv W S c u X v K δ M h m s := by
  have hS : Runnable (stepped S h) c.P.Nd := by
    rw [hC.spheres]
    have := H.runnable
    exact ⟨this.scheme, this.extract, this.cutoff, this.every, this.start, this.first, this.pos, this.force, this.temp⟩
  obtain ⟨s, hs, -⟩ := run_exists (K := L) hS ha hb m (fun j hj s hs _ d hd => by
    have hI := H.inv hn hR hb j (by omega) s hs
    have hle : ((j + 1 : ℕ) : ℝ) ≤ n := by exact_mod_cast (show j + 1 ≤ n by omega)
    obtain ⟨z1, z2⟩ := (H.frame j (by nlinarith [mul_le_mul_of_nonneg_right hle H.h0]) (hR j (by omega)) hI hb).1 d hd
    have hr := hC.ready h z1 (loose_apart z2.1)
    exact ⟨hr, hC.serves h d hr z1⟩)
  exact ⟨s, hs, H.inv hn hR hb m hm s hs⟩

end

end SD.Lip
