import Verif.Lemmas.DependStep
import Verif.Spec.Depend

/-!
# Runs from nearby starts, frame by frame
-/

set_option autoImplicit false

namespace SD.Lip

open Spec Filter Topology Set Move

section
variable {W : World} {S : Settings} {c : Config} {u : UserInput} {L : NDMat → Prop}

/-- How near the run from `c'` is after `k` frames to the state `sb` of the given one. -/
structure Beside (W : World) (S : Settings) (c : Config) (u : UserInput) (bl tr : Vec3) (k : ℕ) (sb : State) (c0b qb : Locs c)
    (c' : Config) (R : ℝ) : Prop where
  visits : ∀ j < k, ∀ s, runFrames W S bl tr (State.fresh c') j = some s → ∀ d, Visits W S bl tr j s d →
    SameSizes c d ∧ ¬ Touching d.P
  ends : ∀ s, runFrames W S bl tr (State.fresh c') k = some s → s.error = false ∧ ∃ c0 q : Locs c,
    c0.1 = s.posdata ∧ dist c0 c0b ≤ R ∧
    (0 < k → (generate_Minfinity q.1.P u.mu S.bead_bead_interactions).inv = some s.cache ∧ dist q qb ≤ R) ∧
    (0 < k → S.scheme = .ab2 →
      ‖(fun i : Fin c.P.Ns => s.lastVel.Ua i) - (fun i : Fin c.P.Ns => sb.lastVel.Ua i)‖ ≤ R)

variable (H : Course W S c u L) (hS : Runnable S 0) (h2d : S.fully_2d_problem = false) {bl tr : Vec3} (hb : bl = tr)
include H hS h2d hb

theorem beside : ∀ {k : ℕ} {sb : State}, runFrames W S bl tr (State.fresh c) k = some sb → Clears W S bl tr c k →
    sb.error = false ∧ ∃ c0b qb : Locs c, c0b.1 = sb.posdata ∧
      (0 < k → Loose qb.1.P ∧ (generate_Minfinity qb.1.P u.mu S.bead_bead_interactions).inv = some sb.cache) ∧
      ∃ A ≥ 1, ∃ δ > 0, ∀ ρ ≤ δ, ∀ e : Locs c, dist (posOf e) (fun i => c.P.spherePos i) ≤ ρ →
        Beside W S c u bl tr k sb c0b qb e.1 (A * ρ) := by
  intro k
  induction k with
  | zero =>
    intro sb hsb _
    obtain rfl := Option.some.inj hsb
    refine ⟨rfl, ⟨c, ⟨rfl, rfl, rfl, rfl⟩⟩, ⟨c, ⟨rfl, rfl, rfl, rfl⟩⟩, rfl, fun h => absurd h (by omega), 1, le_refl _, 1, one_pos,
      fun ρ _ e he => ⟨fun j hj => absurd hj (by omega), fun s hs => ?_⟩⟩
    obtain rfl := Option.some.inj hs
    refine ⟨rfl, e, e, rfl, ?_, fun h => absurd h (by omega), fun h => absurd h (by omega)⟩
    rw [one_mul]
    exact he
  | succ k ih =>
    intro sb' hsb' hcl
    obtain ⟨sb, hsb, hf⟩ := run_prev hsb'
    rw [hS.start, Nat.zero_add] at hf
    obtain ⟨he, c0b, qb, hp, hq, A, hA, δ, hδ, key⟩ := ih hsb fun j hj => hcl j (by omega)
    obtain ⟨-, rb, hr, f1, f2, f3, f4, -⟩ := frame_some he hf
    have hreg : regen S k = false → 0 < k := fun h => by
      by_contra h0
      obtain rfl : k = 0 := by omega
      unfold regen at h
      rw [hS.start] at h
      simp at h
    have hsch : S.scheme = .euler ∨ S.scheme = .ab2 ∨ S.scheme = .rk4 := by
      rcases hS.scheme with h | h | h
      · exact .inl h
      · exact .inr (.inl h.1)
      · exact .inr (.inr h)
    obtain ⟨q'b, g1, g2, B, hB, ε, hε, step⟩ := pair_frame H hS.extract h2d hb hp (fun h => (hq (hreg h)).1)
      (fun h => (hq (hreg h)).2) (fun d hd => hcl k (by omega) sb hsb d hd) hr hS.start hsch
    -- the state after the frame
    have hself : ∀ ρ ≤ min δ (ε / A), ∀ e : Locs c, dist (posOf e) (fun i => c.P.spherePos i) ≤ ρ → ∀ s,
        runFrames W S bl tr (State.fresh e.1) k = some s → s.error = false ∧ After W S c u bl tr k rb q'b s B (A * ρ) := by
      intro ρ hρ e hee s hs
      obtain ⟨z, c0, q, z1, z2, z3, z4⟩ := (key ρ (hρ.trans (min_le_left _ _)) e hee).ends s hs
      refine ⟨z, step (A * ρ) ?_ s c0 q ⟨z1, z2, fun h => z3 (hreg h), z4⟩⟩
      have := hρ.trans (min_le_right _ _)
      rw [le_div_iff₀ (by linarith)] at this
      linarith
    have hm : 0 < min δ (ε / A) := lt_min hδ (div_pos hε (by linarith))
    obtain ⟨w1, ⟨wsz, -, -⟩, -⟩ := (hself 0 hm.le ⟨c, ⟨rfl, rfl, rfl, rfl⟩⟩ (by
      show dist (fun i : Fin c.P.Ns => c.P.spherePos i) _ ≤ _
      rw [dist_self]) sb hsb).2.result rb hr
    have wsz' : SameSizes c sb'.posdata := by rw [f1]; exact wsz
    refine ⟨by rw [f2]; exact w1, ⟨sb'.posdata, wsz'⟩, q'b, rfl, fun _ => ⟨g2, by rw [f3]; exact g1⟩, B * A, by nlinarith,
      min δ (ε / A), hm, fun ρ hρ e hee => ⟨fun j hj s hs d hd => ?_, fun s' hs' => ?_⟩⟩
    · rcases Nat.lt_succ_iff_lt_or_eq.mp hj with h | rfl
      · exact (key ρ (hρ.trans (min_le_left _ _)) e hee).visits j h s hs d hd
      · exact (hself ρ hρ e hee s hs).2.visits d hd
    · obtain ⟨s, hs, hf'⟩ := run_prev hs'
      rw [hS.start, Nat.zero_add] at hf'
      obtain ⟨z, af⟩ := hself ρ hρ e hee s hs
      obtain ⟨-, r, hr', y1, y2, y3, y4, -⟩ := frame_some z hf'
      obtain ⟨x1, ⟨xs, xb, x2⟩, ⟨q', x3, x4⟩, x5⟩ := af.result r hr'
      have xs' : SameSizes c s'.posdata := by rw [y1]; exact xs
      refine ⟨by rw [y2]; exact x1, ⟨s'.posdata, xs'⟩, q', rfl, ?_, fun _ => ⟨by rw [y3]; exact x3, ?_⟩, fun _ hab => ?_⟩
      · refine le_trans (le_of_eq ?_) (x2.trans (le_of_eq (mul_assoc _ _ _).symm))
        show dist (fun i : Fin c.P.Ns => s'.posdata.P.spherePos i) (fun i : Fin c.P.Ns => sb'.posdata.P.spherePos i) = _
        rw [y1, f1]
        rfl
      · rw [mul_assoc]; exact x4
      · rw [y4, f4, mul_assoc]; exact x5 hab

theorem depend {k : ℕ} {sb : State} (hsb : runFrames W S bl tr (State.fresh c) k = some sb) (hcl : Clears W S bl tr c k) :
    Depends W S bl tr c k sb := by
  obtain ⟨-, c0b, qb, hp, -, A, hA, δ, hδ, key⟩ := beside H hS h2d hb hsb hcl
  refine ⟨A, by linarith, δ, hδ, fun c' hc' har r hr hn => ?_⟩
  have hr0 : 0 ≤ r := (abs_nonneg _).trans (hn 0 H.any 0)
  have B := key r hr ⟨c', hc'⟩ ((dist_pi_le_iff hr0).mpr fun i => (dist_pi_le_iff hr0).mpr fun x => hn i i.2 x)
  obtain ⟨s, hs, -⟩ := run_exists (K := L) (c := c') (by rw [hc'.Nd, H.spheres]; exact hS) har hb k (fun j hj s hs _ d hd => by
    obtain ⟨z1, z2⟩ := B.visits j hj s hs d hd
    have hr := H.ready S.timestep z1 z2
    exact ⟨hr, H.serves S.timestep d hr z1⟩)
  obtain ⟨e, c0, q, z1, z2, -⟩ := B.ends s hs
  refine ⟨s, hs, e, fun i hi x => ?_⟩
  rw [locs_dist] at z2
  have := (dist_pi_le_iff (by positivity)).mp ((dist_pi_le_iff (by positivity)).mp z2 ⟨i, hi⟩) x
  rw [← z1, ← hp]
  exact this

end

end SD.Lip
