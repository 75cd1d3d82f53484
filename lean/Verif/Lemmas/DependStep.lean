import Verif.Lemmas.Depend

/-!
# One frame from nearby states
-/

set_option autoImplicit false

namespace SD.Lip

open Spec Filter Topology Set Move

section
variable {W : World} {S : Settings} {c : Config} {u : UserInput} {L : NDMat → Prop}

theorem euler_result (hNd : c.P.Nd = 0) (hNs : 0 < c.P.Ns) (h2d : S.fully_2d_problem = false) {bl tr : Vec3} (hb : bl = tr)
    {c0 : Locs c} {f : ℕ} {lv : Vel} {cache : NDMat} {reg : Bool} {r : StepResult}
    (h : stepEulerAb2 W S bl tr f c0.1 lv cache reg = some r) (hsz : SameSizes c r.new) :
    ∃ st, generate_output_FTSUOE W S c0.1 f cache reg lv = some st ∧ r.error = false ∧ r.cache = st.cache ∧
      (fun i : Fin c.P.Ns => r.lastVel.Ua i) = velOf st (posOf c0) ∧
      posOf (⟨r.new, hsz⟩ : Locs c) = posOf c0 + S.timestep • (if S.scheme = .euler ∨ f - S.start = 0 then velOf st (posOf c0)
        else (3 / 2 : ℝ) • velOf st (posOf c0) - (1 / 2 : ℝ) • fun i : Fin c.P.Ns => lv.Ua i) := by
  have hN0 : c0.1.P.Ns = c.P.Ns := c0.2.Ns
  have hnp : ¬ isPeriodic bl tr := by unfold isPeriodic; rw [hb]; simp
  obtain ⟨st, v0, w, hp⟩ := euler_parts h
  have hw : w = v0 := by
    have := hp.flat
    rw [h2d] at this
    simpa using this
  subst hw
  have hU : (fun i : Fin c.P.Ns => w.Ua i) = velOf st (posOf c0) := by
    funext i
    exact (stageVel_spheres hp.vel (by rw [hN0]; exact i.2)).1
  obtain ⟨new, rots, e1, -, e2, -⟩ := hp.spheres (by rw [hN0]; exact hNs)
  rw [wrapIf_nonperiodic hnp] at e2
  refine ⟨st, hp.stage, (hp.noDumbs (by rw [c0.2.Nd, hNd])).2.2, hp.cache_eq, by rw [hp.vel_eq]; exact hU, ?_⟩
  funext i k
  have hUi := congrFun (congrFun hU i) k
  show r.new.P.spherePos i k = _
  rw [e2, e1]
  by_cases hE : S.scheme = .euler ∨ f - S.start = 0
  · rw [if_pos hE, if_pos hE]
    simp only [euler_timestep, hUi]
    simp [posOf]
  · rw [if_neg hE, if_neg hE]
    simp only [ab2_timestep, hUi]
    simp only [posOf, Pi.add_apply, Pi.smul_apply, Pi.sub_apply, smul_eq_mul]
    ring

theorem rk4_result (hNs : 0 < c.P.Ns) (h2d : S.fully_2d_problem = false) {bl tr : Vec3} (hb : bl = tr)
    {c0 : Locs c} {f : ℕ} {lv : Vel} {cache : NDMat} {reg : Bool} {r : StepResult} {st : Fin 4 → Stage} {v : Fin 4 → Vel}
    {c1 c2 c3 : Config} {e1 e2 e3 : Bool} (hp : Rk4Parts W S bl tr f c0.1 lv cache reg r st v c1 c2 c3 e1 e2 e3)
    (hsz : SameSizes c r.new) : posOf (⟨r.new, hsz⟩ : Locs c) = posOf c0 + S.timestep • ((1 / 6 : ℝ) •
      (velOf (st 0) (posOf c0) + (2 : ℝ) • velOf (st 1) (posOf c0) + (2 : ℝ) • velOf (st 2) (posOf c0) + velOf (st 3) (posOf c0))) := by
  have hN0 : c0.1.P.Ns = c.P.Ns := c0.2.Ns
  have m4 := (hp.spheres (by rw [hN0]; exact hNs)).1
  rw [wrapIf_nonperiodic (by unfold isPeriodic; rw [hb]; simp)] at m4
  funext i k
  have hi' : (i : ℕ) < c0.1.P.Ns := by rw [hN0]; exact i.2
  show r.new.P.spherePos i k = _
  rw [m4, hp.vel_eq, h2d]
  simp only [euler_timestep, Bool.false_eq_true, if_false, blend]
  rw [(stageVel_spheres hp.vel1 hi').1, (stageVel_spheres hp.vel2 hi').1, (stageVel_spheres hp.vel3 hi').1,
    (stageVel_spheres hp.vel4 hi').1]
  simp only [posOf, velOf, Pi.add_apply, Pi.smul_apply, smul_eq_mul]

theorem blend_near {E : Type} [SeminormedAddCommGroup E] [NormedSpace ℝ E] {p pb x0 x1 x2 x3 w0 w1 w2 w3 : E} {h ρ k0 k1 k2 k3 : ℝ}
    (hp : dist p pb ≤ ρ) (h0 : ‖x0 - w0‖ ≤ k0) (h1 : ‖x1 - w1‖ ≤ k1) (h2 : ‖x2 - w2‖ ≤ k2) (h3 : ‖x3 - w3‖ ≤ k3) :
    dist (p + h • ((1 / 6 : ℝ) • (x0 + (2 : ℝ) • x1 + (2 : ℝ) • x2 + x3)))
      (pb + h • ((1 / 6 : ℝ) • (w0 + (2 : ℝ) • w1 + (2 : ℝ) • w2 + w3))) ≤ ρ + |h| * (k0 + 2 * k1 + 2 * k2 + k3) := by
  rw [dist_eq_norm] at hp ⊢
  rw [show p + h • ((1 / 6 : ℝ) • (x0 + (2 : ℝ) • x1 + (2 : ℝ) • x2 + x3))
      - (pb + h • ((1 / 6 : ℝ) • (w0 + (2 : ℝ) • w1 + (2 : ℝ) • w2 + w3)))
    = (p - pb) + h • ((1 / 6 : ℝ) • ((x0 - w0) + (2 : ℝ) • (x1 - w1) + (2 : ℝ) • (x2 - w2) + (x3 - w3))) by
      simp only [smul_sub, smul_add]; abel]
  refine (norm_add_le _ _).trans ?_
  have t := norm_add₃_le (a := (x0 - w0) + (2 : ℝ) • (x1 - w1)) (b := (2 : ℝ) • (x2 - w2)) (c := x3 - w3)
  have t' := norm_add_le (x0 - w0) ((2 : ℝ) • (x1 - w1))
  rw [norm_smul, Real.norm_of_nonneg (by norm_num : (0 : ℝ) ≤ 2)] at t t'
  rw [norm_smul, norm_smul, Real.norm_eq_abs, Real.norm_of_nonneg (by norm_num : (0 : ℝ) ≤ 1 / 6)]
  have := norm_nonneg (x0 - w0 + (2 : ℝ) • (x1 - w1) + (2 : ℝ) • (x2 - w2) + (x3 - w3))
  have t3 : 1 / 6 * ‖x0 - w0 + (2 : ℝ) • (x1 - w1) + (2 : ℝ) • (x2 - w2) + (x3 - w3)‖ ≤ k0 + 2 * k1 + 2 * k2 + k3 := by
    linarith
  have := mul_le_mul_of_nonneg_left t3 (abs_nonneg h)
  linarith

/-- What a frame of the other run needs: near in places, in the far field that is still in use, in the last velocities. -/
structure Close (W : World) (S : Settings) (c : Config) (u : UserInput) (f : ℕ) (sb : State) (c0b qb : Locs c) (s : State)
    (c0 q : Locs c) (ρ : ℝ) : Prop where
  here : c0.1 = s.posdata
  pos : dist c0 c0b ≤ ρ
  cache : regen S f = false → (generate_Minfinity q.1.P u.mu S.bead_bead_interactions).inv = some s.cache ∧ dist q qb ≤ ρ
  vel : 0 < f → S.scheme = .ab2 →
    ‖(fun i : Fin c.P.Ns => s.lastVel.Ua i) - (fun i : Fin c.P.Ns => sb.lastVel.Ua i)‖ ≤ ρ

/-- What it gives. -/
structure After (W : World) (S : Settings) (c : Config) (u : UserInput) (bl tr : Vec3) (f : ℕ) (rb : StepResult) (q'b : Locs c)
    (s : State) (A ρ : ℝ) : Prop where
  visits : ∀ d, Visits W S bl tr f s d → SameSizes c d ∧ ¬ Touching d.P
  result : ∀ r, frameStep W S bl tr f s = some r → r.error = false ∧ (∃ (h : SameSizes c r.new) (hb : SameSizes c rb.new),
      dist (posOf (c := c) ⟨r.new, h⟩) (posOf (c := c) ⟨rb.new, hb⟩) ≤ A * ρ) ∧
    (∃ q' : Locs c, (generate_Minfinity q'.1.P u.mu S.bead_bead_interactions).inv = some r.cache ∧ dist q' q'b ≤ A * ρ) ∧
    (S.scheme = .ab2 → ‖(fun i : Fin c.P.Ns => r.lastVel.Ua i) - (fun i : Fin c.P.Ns => rb.lastVel.Ua i)‖ ≤ A * ρ)

variable (H : Course W S c u L) (hx : S.extract = false) (h2d : S.fully_2d_problem = false) (hstart : S.start = 0) {bl tr : Vec3}
  (hb : bl = tr) {f : ℕ} {sb : State} {c0b qb : Locs c} {rb : StepResult}
  (hs : c0b.1 = sb.posdata) (hq : regen S f = false → Loose qb.1.P)
  (hi : regen S f = false → (generate_Minfinity qb.1.P u.mu S.bead_bead_interactions).inv = some sb.cache)
  (hv : ∀ d, Visits W S bl tr f sb d → Off S d.P) (hr : frameStep W S bl tr f sb = some rb)
include H hx h2d hb hs hq hi hv hr

include hstart in
theorem pair_euler (hsch : S.scheme = .euler ∨ S.scheme = .ab2) :
    ∃ q'b : Locs c, (generate_Minfinity q'b.1.P u.mu S.bead_bead_interactions).inv = some rb.cache ∧ Loose q'b.1.P ∧
      ∃ A ≥ 1, ∃ δ > 0, ∀ ρ ≤ δ, ∀ s c0 q, Close W S c u f sb c0b qb s c0 q ρ → After W S c u bl tr f rb q'b s A ρ := by
  have hne : S.scheme ≠ .rk4 := by rcases hsch with h | h <;> rw [h] <;> simp
  have hoff : Off S c0b.1.P := by rw [hs]; exact hv _ (.inl rfl)
  have hcacheIn : ∀ s : State, regen S f = false → cacheIn S f s = s.cache := fun s e => by unfold cacheIn; rw [e]; rfl
  have hsz : ∀ {s : State} {c0 : Locs c} {r : StepResult}, c0.1 = s.posdata → frameStep W S bl tr f s = some r →
      SameSizes c r.new := fun {s c0 r} e h => by
    unfold frameStep at h
    have hz := timeStep_sizes h
    rw [← e] at hz
    exact ⟨hz.1.trans c0.2.Ns, hz.2.1.trans c0.2.Nd, hz.2.2.1.trans c0.2.spheres, hz.2.2.2.trans c0.2.dumbs⟩
  have step : ∀ {s : State} {c0 : Locs c} {r : StepResult}, c0.1 = s.posdata → frameStep W S bl tr f s = some r →
      stepEulerAb2 W S bl tr f c0.1 (velIn S f s) (cacheIn S f s) (regen S f) = some r := fun {s c0 r} e h => by
    unfold frameStep at h
    rw [← e] at h
    rcases timeStep_cases h with ⟨-, h⟩ | ⟨h, -⟩
    · exact h
    · exact absurd h hne
  obtain ⟨stb, b1, b2, b3, b4, b5⟩ := euler_result H.spheres H.any h2d hb (step hs hr) (hsz hs hr)
  obtain ⟨q'b, k1, k2, K, hK, δ, hδ, key⟩ := pair_stage H hx (c0b := c0b) hoff hq b1 (fun e => by rw [hcacheIn sb e]; exact hi e)
  refine ⟨q'b, by rw [b3]; exact k1, k2, 1 + K + |S.timestep| * (2 * K + 1), by nlinarith [abs_nonneg S.timestep], δ, hδ,
    fun ρ hρ s c0 q hc => ?_⟩
  have hρ0 : 0 ≤ ρ := dist_nonneg.trans hc.pos
  have hh := abs_nonneg S.timestep
  obtain ⟨nt, kk⟩ := key ρ hρ c0 hc.pos
  refine ⟨fun d hd => ?_, fun r hr' => ?_⟩
  · rcases visits_eq.mp hd with rfl | ⟨h, -⟩
    · rw [← hc.here]; exact ⟨c0.2, nt⟩
    · exact absurd h hne
  obtain ⟨st, a1, a2, a3, a4, a5⟩ := euler_result H.spheres H.any h2d hb (step hc.here hr') (hsz hc.here hr')
  obtain ⟨kq, kv⟩ := kk c0 q hc.pos (fun e => (hc.cache e).2) _ _ _ st a1 (fun e => by rw [hcacheIn s e]; exact (hc.cache e).1)
  obtain ⟨q', g1, g2⟩ := kq ρ (fun e => (hc.cache e).2) hc.pos
  have big : ∀ x, x ≤ ρ → x ≤ (1 + K + |S.timestep| * (2 * K + 1)) * ρ := fun x hx => by
    nlinarith [mul_nonneg hK hρ0, mul_nonneg hh (mul_nonneg hK hρ0), mul_nonneg hh hρ0]
  refine ⟨a2, ⟨hsz hc.here hr', hsz hs hr, ?_⟩, ⟨q', by rw [a3]; exact g1, big _ g2⟩, fun _ => ?_⟩
  · rw [a5, b5, dist_eq_norm]
    by_cases hE : S.scheme = .euler ∨ f - S.start = 0
    · rw [if_pos hE, if_pos hE, show posOf c0 + S.timestep • velOf st (posOf c0) - (posOf c0b + S.timestep • velOf stb (posOf c0b))
        = (posOf c0 - posOf c0b) + S.timestep • (velOf st (posOf c0) - velOf stb (posOf c0b)) by rw [smul_sub]; abel]
      refine (norm_add_le _ _).trans ?_
      rw [norm_smul, Real.norm_eq_abs, ← dist_eq_norm, ← locs_dist]
      have := hc.pos
      nlinarith [mul_le_mul_of_nonneg_left kv hh, mul_nonneg hK hρ0, mul_nonneg hh (mul_nonneg hK hρ0), mul_nonneg hh hρ0]
    · have hab : S.scheme = .ab2 := by
        rcases hsch with h | h
        · exact absurd (.inl h) hE
        · exact h
      have hf : 0 < f := by
        by_contra h0
        exact hE (.inr (by omega))
      have hlv : ∀ s : State, velIn S f s = s.lastVel := fun s => by
        unfold velIn
        rw [if_neg (by rw [hstart]; omega)]
      have n2 := hc.vel hf hab
      rw [if_neg hE, if_neg hE, hlv, hlv]
      set va := velOf st (posOf c0)
      set vb := velOf stb (posOf c0b)
      set la : Fin c.P.Ns → Vec3 := fun i => s.lastVel.Ua i
      set lb : Fin c.P.Ns → Vec3 := fun i => sb.lastVel.Ua i
      rw [show posOf c0 + S.timestep • ((3 / 2 : ℝ) • va - (1 / 2 : ℝ) • la) - (posOf c0b + S.timestep • ((3 / 2 : ℝ) • vb - (1 / 2 : ℝ) • lb))
        = (posOf c0 - posOf c0b) + S.timestep • ((3 / 2 : ℝ) • (va - vb) - (1 / 2 : ℝ) • (la - lb)) by
          simp only [smul_sub]; abel]
      refine (norm_add_le _ _).trans ?_
      have t := norm_sub_le ((3 / 2 : ℝ) • (va - vb)) ((1 / 2 : ℝ) • (la - lb))
      rw [norm_smul, norm_smul, Real.norm_of_nonneg (by norm_num : (0 : ℝ) ≤ 3 / 2),
          Real.norm_of_nonneg (by norm_num : (0 : ℝ) ≤ 1 / 2)] at t
      rw [norm_smul, Real.norm_eq_abs, ← dist_eq_norm, ← locs_dist]
      have := hc.pos
      have t2 : ‖(3 / 2 : ℝ) • (va - vb) - (1 / 2 : ℝ) • (la - lb)‖ ≤ (2 * K + 1) * ρ := by
        nlinarith [mul_nonneg hK hρ0]
      nlinarith [mul_le_mul_of_nonneg_left t2 hh, mul_nonneg hK hρ0]
  · rw [a4, b4]
    refine kv.trans ?_
    nlinarith [mul_nonneg hK hρ0, mul_nonneg hh (mul_nonneg hK hρ0), mul_nonneg hh hρ0]

theorem pair_rk4 (hsch : S.scheme = .rk4) :
    ∃ q'b : Locs c, (generate_Minfinity q'b.1.P u.mu S.bead_bead_interactions).inv = some rb.cache ∧ Loose q'b.1.P ∧
      ∃ A ≥ 1, ∃ δ > 0, ∀ ρ ≤ δ, ∀ s c0 q, Close W S c u f sb c0b qb s c0 q ρ → After W S c u bl tr f rb q'b s A ρ := by
  have hoff : Off S c0b.1.P := by rw [hs]; exact hv _ (.inl rfl)
  have hcacheIn : ∀ s : State, regen S f = false → cacheIn S f s = s.cache := fun s e => by unfold cacheIn; rw [e]; rfl
  have hsz : ∀ {s : State} {c0 : Locs c} {r : StepResult}, c0.1 = s.posdata → frameStep W S bl tr f s = some r →
      SameSizes c r.new := fun {s c0 r} e h => by
    unfold frameStep at h
    have hz := timeStep_sizes h
    rw [← e] at hz
    exact ⟨hz.1.trans c0.2.Ns, hz.2.1.trans c0.2.Nd, hz.2.2.1.trans c0.2.spheres, hz.2.2.2.trans c0.2.dumbs⟩
  have step : ∀ {s : State} {c0 : Locs c} {r : StepResult}, c0.1 = s.posdata → frameStep W S bl tr f s = some r →
      stepRk4 W S bl tr f c0.1 (velIn S f s) (cacheIn S f s) (regen S f) = some r := fun {s c0 r} e h => by
    unfold frameStep at h
    rw [← e] at h
    rcases timeStep_cases h with ⟨h', -⟩ | ⟨-, h⟩
    · rcases h' with h' | h' <;> · rw [hsch] at h'; cases h'
    · exact h
  -- the run that is given
  obtain ⟨stb, vb, c1b, c2b, c3b, e1b, e2b, e3b, pb⟩ := rk4_parts (step hs hr)
  have inner : ∀ d, Spec.Inner W S bl tr f c0b.1 (velIn S f sb) (cacheIn S f sb) (regen S f) d → Off S d.P := fun d hd =>
    hv d (visits_eq.mpr (.inr ⟨hsch, by rw [← hs]; exact hd⟩))
  obtain ⟨d1b, x1, y1, -⟩ := move_pos (c := c) H.spheres H.any hb pb.vel1 pb.move1
  obtain ⟨d2b, x2, y2, -⟩ := move_pos (c := c) H.spheres H.any hb pb.vel2 pb.move2
  obtain ⟨d3b, x3, y3, -⟩ := move_pos (c := c) H.spheres H.any hb pb.vel3 pb.move3
  have o1 : Off S d1b.1.P := by
    rw [x1]; exact inner _ ⟨_, _, _, pb.stage1, pb.vel1, pb.move1, .inl rfl⟩
  have o2 : Off S d2b.1.P := by
    rw [x2]; exact inner _ ⟨_, _, _, pb.stage1, pb.vel1, pb.move1, .inr ⟨_, _, _, pb.stage2, pb.vel2, pb.move2, .inl rfl⟩⟩
  have o3 : Off S d3b.1.P := by
    rw [x3]
    exact inner _ ⟨_, _, _, pb.stage1, pb.vel1, pb.move1, .inr ⟨_, _, _, pb.stage2, pb.vel2, pb.move2,
      .inr ⟨_, _, _, pb.stage3, pb.vel3, pb.move3, rfl⟩⟩⟩
  obtain ⟨q'b, k1, k2, K1, hK1, δ1, hδ1, key1⟩ := pair_stage H hx (c0b := c0b) hoff hq pb.stage1
    (fun e => by rw [hcacheIn sb e]; exact hi e)
  have s2 := pb.stage2; have s3 := pb.stage3; have s4 := pb.stage4
  rw [show c1b = d1b.1 from x1.symm] at s2
  rw [show c2b = d2b.1 from x2.symm] at s3
  rw [show c3b = d3b.1 from x3.symm] at s4
  obtain ⟨_, _, _, K2, hK2, δ2, hδ2, key2⟩ := pair_stage H hx (c0b := c0b) o1 (fun _ => k2) s2 (fun _ => k1)
  obtain ⟨_, _, _, K3, hK3, δ3, hδ3, key3⟩ := pair_stage H hx (c0b := c0b) o2 (fun _ => k2) s3 (fun _ => k1)
  obtain ⟨_, _, _, K4, hK4, δ4, hδ4, key4⟩ := pair_stage H hx (c0b := c0b) o3 (fun _ => k2) s4 (fun _ => k1)
  set h := S.timestep with hh
  have hh0 := abs_nonneg h
  set a1 := 1 + |h| * K1 with ha1
  set a2 := 1 + |h| * (K2 * a1) with ha2
  set a3 := 1 + |h| * (K3 * a2) with ha3
  have l1 : 1 ≤ a1 := by rw [ha1]; nlinarith [mul_nonneg hh0 hK1]
  have l2 : 1 ≤ a2 := by
    have := mul_nonneg hh0 (mul_nonneg hK2 (zero_le_one.trans l1))
    linarith
  have l3 : 1 ≤ a3 := by
    have := mul_nonneg hh0 (mul_nonneg hK3 (zero_le_one.trans l2))
    linarith
  set A := 1 + |h| * (K1 + 2 * (K2 * a1) + 2 * (K3 * a2) + K4 * a3) with hA
  have lA : 1 ≤ A := by
    have p2 := mul_nonneg hK2 (zero_le_one.trans l1)
    have p3 := mul_nonneg hK3 (zero_le_one.trans l2)
    have p4 := mul_nonneg hK4 (zero_le_one.trans l3)
    have := mul_nonneg hh0 (show 0 ≤ K1 + 2 * (K2 * a1) + 2 * (K3 * a2) + K4 * a3 by linarith)
    linarith
  refine ⟨q'b, by rw [pb.cache_eq]; exact k1, k2, A, lA, min (min δ1 (δ2 / a1)) (min (δ3 / a2) (δ4 / a3)), by positivity,
    fun ρ hρ s c0 q hc => ?_⟩
  have hρ0 : 0 ≤ ρ := dist_nonneg.trans hc.pos
  have r1 : ρ ≤ δ1 := hρ.trans ((min_le_left _ _).trans (min_le_left _ _))
  have r2 : a1 * ρ ≤ δ2 := by
    have := hρ.trans ((min_le_left _ _).trans (min_le_right _ _))
    rw [le_div_iff₀ (by linarith)] at this; linarith
  have r3 : a2 * ρ ≤ δ3 := by
    have := hρ.trans ((min_le_right _ _).trans (min_le_left _ _))
    rw [le_div_iff₀ (by linarith)] at this; linarith
  have r4 : a3 * ρ ≤ δ4 := by
    have := hρ.trans ((min_le_right _ _).trans (min_le_right _ _))
    rw [le_div_iff₀ (by linarith)] at this; linarith
  have m1 : ρ ≤ a1 * ρ := by nlinarith
  have m2 : ρ ≤ a2 * ρ := by nlinarith
  have m3 : ρ ≤ a3 * ρ := by nlinarith
  have c2 : |h / 2| ≤ |h| := by rw [abs_div, abs_two]; linarith
  obtain ⟨nt0, kk1⟩ := key1 ρ r1 c0 hc.pos
  have T1 := fun st hst => kk1 c0 q hc.pos (fun e => (hc.cache e).2) (f : ℝ) (cacheIn S f s) (velIn S f s) st hst
    (fun e => by rw [hcacheIn s e]; exact (hc.cache e).1)
  -- the moves
  have M1 : ∀ st v p, generate_output_FTSUOE W S c0.1 f (cacheIn S f s) (regen S f) (velIn S f s) = some st →
      stageVel c0.1 st st.out.Ea = some v → rk4Move S bl tr c0.1 st v (h / 2) false = some p →
      ∃ d : Locs c, d.1 = p.1 ∧ dist d d1b ≤ a1 * ρ ∧ p.2 = false := fun st v p hst hv hp => by
    obtain ⟨d, g1, g2, g3⟩ := pair_move H.spheres H.any hb hv hp y1 hc.pos (T1 st hst).2
    refine ⟨d, g1, g2.trans ?_, g3⟩
    rw [ha1]
    nlinarith [mul_le_mul_of_nonneg_right c2 (mul_nonneg hK1 hρ0)]
  have T2 : ∀ (d q' : Locs c) (st st' : Stage), dist d d1b ≤ a1 * ρ →
      (generate_Minfinity q'.1.P u.mu S.bead_bead_interactions).inv = some st'.cache → dist q' q'b ≤ ρ →
      generate_output_FTSUOE W S d.1 (f + 0.5) st'.cache (regen S f && S.rk4_each_stage) (velIn S f s) = some st →
      ‖velOf st (posOf c0) - velOf (stb 1) (posOf c0b)‖ ≤ K2 * (a1 * ρ) := fun d q' st st' hd hi' hq' hst =>
    ((key2 _ r2 d hd).2 c0 q' (hc.pos.trans m1) (fun _ => hq'.trans m1) _ _ _ st hst (fun _ => hi')).2
  have M2 : ∀ (d q' : Locs c) (st st' : Stage) v Ed p, dist d d1b ≤ a1 * ρ →
      (generate_Minfinity q'.1.P u.mu S.bead_bead_interactions).inv = some st'.cache → dist q' q'b ≤ ρ →
      generate_output_FTSUOE W S d.1 (f + 0.5) st'.cache (regen S f && S.rk4_each_stage) (velIn S f s) = some st →
      stageVel c0.1 st Ed = some v → ∀ e, rk4Move S bl tr c0.1 st v (h / 2) e = some p →
      ∃ d : Locs c, d.1 = p.1 ∧ dist d d2b ≤ a2 * ρ ∧ p.2 = e := fun d q' st st' v Ed p hd hi' hq' hst hv e hp => by
    obtain ⟨d, g1, g2, g3⟩ := pair_move H.spheres H.any hb hv hp y2 hc.pos (T2 d q' st st' hd hi' hq' hst)
    refine ⟨d, g1, g2.trans ?_, g3⟩
    rw [ha2]
    nlinarith [mul_le_mul_of_nonneg_right c2 (mul_nonneg hK2 (mul_nonneg (zero_le_one.trans l1) hρ0))]
  have T3 : ∀ (d q' : Locs c) (st st' : Stage), dist d d2b ≤ a2 * ρ →
      (generate_Minfinity q'.1.P u.mu S.bead_bead_interactions).inv = some st'.cache → dist q' q'b ≤ ρ →
      generate_output_FTSUOE W S d.1 (f + 0.5) st'.cache (regen S f && S.rk4_each_stage) (velIn S f s) = some st →
      ‖velOf st (posOf c0) - velOf (stb 2) (posOf c0b)‖ ≤ K3 * (a2 * ρ) := fun d q' st st' hd hi' hq' hst =>
    ((key3 _ r3 d hd).2 c0 q' (hc.pos.trans m2) (fun _ => hq'.trans m2) _ _ _ st hst (fun _ => hi')).2
  have M3 : ∀ (d q' : Locs c) (st st' : Stage) v Ed p, dist d d2b ≤ a2 * ρ →
      (generate_Minfinity q'.1.P u.mu S.bead_bead_interactions).inv = some st'.cache → dist q' q'b ≤ ρ →
      generate_output_FTSUOE W S d.1 (f + 0.5) st'.cache (regen S f && S.rk4_each_stage) (velIn S f s) = some st →
      stageVel c0.1 st Ed = some v → ∀ e, rk4Move S bl tr c0.1 st v h e = some p →
      ∃ d : Locs c, d.1 = p.1 ∧ dist d d3b ≤ a3 * ρ ∧ p.2 = e := fun d q' st st' v Ed p hd hi' hq' hst hv e hp => by
    obtain ⟨d, g1, g2, g3⟩ := pair_move H.spheres H.any hb hv hp y3 hc.pos (T3 d q' st st' hd hi' hq' hst)
    refine ⟨d, g1, g2.trans (le_of_eq ?_), g3⟩
    rw [ha3]; ring
  refine ⟨fun d hd => ?_, fun r hr' => ?_⟩
  · rcases visits_eq.mp hd with rfl | ⟨-, hd⟩
    · rw [← hc.here]; exact ⟨c0.2, nt0⟩
    unfold Spec.Inner at hd
    rw [← hc.here] at hd
    obtain ⟨st1, v1, p1, u1, b1, w1, hd⟩ := hd
    obtain ⟨d1, f1, g1, -⟩ := M1 st1 v1 p1 u1 b1 w1
    obtain ⟨q', i1, i2⟩ := (T1 st1 u1).1 ρ (fun e => (hc.cache e).2) hc.pos
    rcases hd with rfl | ⟨st2, v2, p2, u2, b2, w2, hd⟩
    · exact ⟨f1 ▸ d1.2, f1 ▸ (key2 _ r2 d1 g1).1⟩
    rw [← f1] at u2
    obtain ⟨d2, f2, g2, -⟩ := M2 d1 q' st2 st1 v2 _ p2 g1 i1 i2 u2 b2 _ w2
    rcases hd with rfl | ⟨st3, v3, p3, u3, b3, w3, rfl⟩
    · exact ⟨f2 ▸ d2.2, f2 ▸ (key3 _ r3 d2 g2).1⟩
    rw [← f2] at u3
    obtain ⟨d3, f3, g3, -⟩ := M3 d2 q' st3 st1 v3 _ p3 g2 i1 i2 u3 b3 _ w3
    exact ⟨f3 ▸ d3.2, f3 ▸ (key4 _ r4 d3 g3).1⟩
  obtain ⟨st, v, c1, c2', c3, e1, e2, e3, pa⟩ := rk4_parts (step hc.here hr')
  obtain ⟨d1, f1, g1, z1⟩ := M1 _ _ _ pa.stage1 pa.vel1 pa.move1
  obtain ⟨q', i1, i2⟩ := (T1 _ pa.stage1).1 ρ (fun e => (hc.cache e).2) hc.pos
  have t2 := pa.stage2; have t3 := pa.stage3; have t4 := pa.stage4
  rw [show c1 = d1.1 from f1.symm] at t2
  obtain ⟨d2, f2, g2, z2⟩ := M2 d1 q' _ _ _ _ _ g1 i1 i2 t2 pa.vel2 _ pa.move2
  rw [show c2' = d2.1 from f2.symm] at t3
  obtain ⟨d3, f3, g3, z3⟩ := M3 d2 q' _ _ _ _ _ g2 i1 i2 t3 pa.vel3 _ pa.move3
  rw [show c3 = d3.1 from f3.symm] at t4
  have n1 := (T1 _ pa.stage1).2
  have n2 := T2 d1 q' _ _ g1 i1 i2 t2
  have n3 := T3 d2 q' _ _ g2 i1 i2 t3
  have n4 := ((key4 _ r4 d3 g3).2 c0 q' (hc.pos.trans m3) (fun _ => i2.trans m3) _ _ _ _ t4 (fun _ => i1)).2
  refine ⟨?_, ⟨hsz hc.here hr', hsz hs hr, ?_⟩, ⟨q', by rw [pa.cache_eq]; exact i1, i2.trans (by nlinarith)⟩, fun e => by
    rw [hsch] at e; cases e⟩
  · exact ((pa.noDumbs (by rw [c0.2.Nd, H.spheres])).2.2.trans z3).trans (z2.trans z1)
  · rw [rk4_result H.any h2d hb pa (hsz hc.here hr'), rk4_result H.any h2d hb pb (hsz hs hr)]
    refine (blend_near hc.pos n1 n2 n3 n4).trans (le_of_eq ?_)
    rw [hA]
    ring

theorem pair_frame (hstart : S.start = 0) (hsch : S.scheme = .euler ∨ S.scheme = .ab2 ∨ S.scheme = .rk4) :
    ∃ q'b : Locs c, (generate_Minfinity q'b.1.P u.mu S.bead_bead_interactions).inv = some rb.cache ∧ Loose q'b.1.P ∧
      ∃ A ≥ 1, ∃ δ > 0, ∀ ρ ≤ δ, ∀ s c0 q, Close W S c u f sb c0b qb s c0 q ρ → After W S c u bl tr f rb q'b s A ρ := by
  rcases hsch with h | h | h
  · exact pair_euler H hx h2d hstart hb hs hq hi hv hr (.inl h)
  · exact pair_euler H hx h2d hstart hb hs hq hi hv hr (.inr h)
  · exact pair_rk4 H hx h2d hb hs hq hi hv hr h

end

end SD.Lip
