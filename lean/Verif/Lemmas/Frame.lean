import Verif.Model.Frame

/-! # Taking apart a frame -/

set_option autoImplicit false

namespace SD

variable {W : World} {S : Settings} {bl tr : Vec3}

/-- Whether the far-field inverse is to be found again. -/
def regen (S : Settings) (f : ℕ) : Bool := f % S.invert_m_every == 0 || f == S.start

/-- The cached inverse handed to the first stage. -/
noncomputable def cacheIn (S : Settings) (f : ℕ) (s : State) : NDMat :=
  if regen S f then NDMat.zeros 1 1 else s.cache

/-- The last velocities handed to the first stage. -/
def velIn (S : Settings) (f : ℕ) (s : State) : Vel :=
  if f = 0 ∨ f = S.start then Vel.blank else s.lastVel

/-- The step made in frame `f` from the state `s`. -/
noncomputable def frameStep (W : World) (S : Settings) (bl tr : Vec3) (f : ℕ) (s : State) :
    Option StepResult :=
  timeStep W S bl tr f s.posdata (velIn S f s) (cacheIn S f s) (regen S f)

theorem frame_error {f : ℕ} {s : State} (h : s.error = true) :
    generate_frame W S bl tr f s = some s := by
  unfold generate_frame
  rw [if_pos h]

theorem frame_eq {f : ℕ} {s : State} (h : s.error = false) (hn : S.invert_m_every ≠ 0) :
    generate_frame W S bl tr f s =
      (frameStep W S bl tr f s).bind fun r =>
      (savePositions S f s.posdata r.new s.savedPos).bind fun p =>
      (saveForces S f r.forces s.savedForces).bind fun g =>
      (saveTemp S f p g s.temp).bind fun t =>
      some { posdata := r.new, error := r.error, cache := r.cache, lastVel := r.lastVel, savedPos := p,
             savedForces := g, temp := t } := by
  unfold generate_frame
  rw [if_neg (by simp [h]), if_neg hn]
  rfl

theorem frame_some {f : ℕ} {s s' : State} (h : s.error = false)
    (hf : generate_frame W S bl tr f s = some s') :
    S.invert_m_every ≠ 0 ∧ ∃ r, frameStep W S bl tr f s = some r ∧
      s'.posdata = r.new ∧ s'.error = r.error ∧ s'.cache = r.cache ∧ s'.lastVel = r.lastVel ∧
      savePositions S f s.posdata r.new s.savedPos = some s'.savedPos ∧
      saveForces S f r.forces s.savedForces = some s'.savedForces ∧
      saveTemp S f s'.savedPos s'.savedForces s.temp = some s'.temp := by
  by_cases hn : S.invert_m_every = 0
  · unfold generate_frame at hf
    rw [if_neg (by simp [h]), if_pos hn] at hf
    exact absurd hf (by simp)
  refine ⟨hn, ?_⟩
  rw [frame_eq h hn] at hf
  obtain ⟨r, h1, hf⟩ := Option.bind_eq_some_iff.mp hf
  obtain ⟨p, h2, hf⟩ := Option.bind_eq_some_iff.mp hf
  obtain ⟨g, h3, hf⟩ := Option.bind_eq_some_iff.mp hf
  obtain ⟨t, h4, hf⟩ := Option.bind_eq_some_iff.mp hf
  obtain rfl := Option.some.inj hf
  exact ⟨r, h1, rfl, rfl, rfl, rfl, h2, h3, h4⟩

theorem output_some {c : Config} {t : ℝ} {last : NDMat} {reg : Bool} {lv : Vel} {st : Stage}
    (h : generate_output_FTSUOE W S c t last reg lv = some st) :
    ∃ u R u2, W.input_ftsuoe c t S.timestep lv none = some u ∧
      stageResistance W S c last reg u = some (R, st.cache) ∧
      (S.input_form ≠ .fte → u2 = u) ∧
      (S.input_form = .fte → ∃ R', fts_to_fte_matrix c.P.Ns c.P.Nd R = some R' ∧
        W.input_ftsuoe c t S.timestep lv (some R') = some u2) ∧
      solveForm S.input_form S.extract c.P.Ns c.P.Nd R u2.inp = some st.out ∧
      st.U = u2.U ∧ st.O = u2.O ∧ st.centre = u2.centre ∧ st.Ot = u2.Ot ∧ st.Et = u2.Et := by
  unfold generate_output_FTSUOE at h
  obtain ⟨u, h1, h⟩ := Option.bind_eq_some_iff.mp h
  obtain ⟨⟨R, C⟩, h2, h⟩ := Option.bind_eq_some_iff.mp h
  obtain ⟨u2, h3, h⟩ := Option.bind_eq_some_iff.mp h
  obtain ⟨out, h4, h⟩ := Option.bind_eq_some_iff.mp h
  obtain rfl := Option.some.inj h
  refine ⟨u, R, u2, h1, h2, fun hne => ?_, fun he => ?_, h4, rfl, rfl, rfl, rfl, rfl⟩
  · rw [if_neg hne] at h3
    exact (Option.some.inj h3).symm
  · rw [if_pos he] at h3
    obtain ⟨R', h5, h6⟩ := Option.bind_eq_some_iff.mp h3
    exact ⟨R', h5, h6⟩

/-- The spheres' part of a step. -/
structure EulerParts (W : World) (S : Settings) (bl tr : Vec3) (f : ℕ) (c : Config) (lv : Vel)
    (cache : NDMat) (reg : Bool) (r : StepResult) (st : Stage) (v0 v : Vel) : Prop where
  stage : generate_output_FTSUOE W S c f cache reg lv = some st
  vel : stageVel c st st.out.Ea = some v0
  flat : v = if S.fully_2d_problem then { v0 with Ua := zeroY v0.Ua } else v0
  spheres : 0 < c.P.Ns → ∃ new rots,
    new = (if S.scheme = .euler ∨ f - S.start = 0 then euler_timestep c.P.spherePos v.Ua S.timestep
        else ab2_timestep c.P.spherePos v.Ua lv.Ua S.timestep) ∧
    (if S.scheme = .euler ∨ f - S.start = 0 then
      euler_timestep_rotation c.P.Ns c.P.spherePos c.rots new v.Oa S.timestep
      else ab2_timestep_rotation c.P.Ns c.P.spherePos c.rots new v.Oa lv.Oa S.timestep) = some rots ∧
    wrapIf bl tr st.Ot st.Et new = some r.new.P.spherePos ∧ r.new.rots = rots
  noSpheres : c.P.Ns = 0 → r.new.P.spherePos = c.P.spherePos ∧ r.new.rots = c.rots
  dumbs : 0 < c.P.Nd → S.scheme = .euler ∧
    r.new.P.dumbDx = euler_timestep c.P.dumbDx (fun i k => 2 * v.HalfDUb i k) S.timestep ∧
    r.error = did_something_go_wrong_with_dumbells false c.P.Nd r.new.P.dumbDx S.explosion_protection ∧
    wrapIf bl tr st.Ot st.Et (euler_timestep c.P.dumbPos v.Ub S.timestep) = some r.new.P.dumbPos
  noDumbs : c.P.Nd = 0 → r.new.P.dumbPos = c.P.dumbPos ∧ r.new.P.dumbDx = c.P.dumbDx ∧ r.error = false
  cache_eq : r.cache = st.cache
  vel_eq : r.lastVel = v
  forces_eq : r.forces = st.out.forces
  sizes : r.new.P.Ns = c.P.Ns ∧ r.new.P.Nd = c.P.Nd ∧ r.new.P.sphereSize = c.P.sphereSize ∧
    r.new.P.dumbSize = c.P.dumbSize

theorem euler_parts {f : ℕ} {c : Config} {lv : Vel} {cache : NDMat} {reg : Bool} {r : StepResult}
    (h : stepEulerAb2 W S bl tr f c lv cache reg = some r) :
    ∃ st v0 v, EulerParts W S bl tr f c lv cache reg r st v0 v := by
  unfold stepEulerAb2 at h
  obtain ⟨st, h1, h⟩ := Option.bind_eq_some_iff.mp h
  obtain ⟨v0, h2, h⟩ := Option.bind_eq_some_iff.mp h
  dsimp only at h
  obtain ⟨sp, h3, h⟩ := Option.bind_eq_some_iff.mp h
  obtain ⟨db, h4, h⟩ := Option.bind_eq_some_iff.mp h
  obtain rfl := Option.some.inj h
  refine ⟨st, v0, _, h1, h2, rfl, fun hp => ?_, fun h0 => ?_, fun hp => ?_, fun h0 => ?_, rfl, rfl, rfl,
    rfl, rfl, rfl, rfl⟩
  · rw [if_pos hp] at h3
    obtain ⟨rots, h5, h3⟩ := Option.bind_eq_some_iff.mp h3
    obtain ⟨new, h6, h3⟩ := Option.bind_eq_some_iff.mp h3
    obtain rfl := Option.some.inj h3
    exact ⟨_, rots, rfl, h5, h6, rfl⟩
  · rw [if_neg (by omega)] at h3
    obtain rfl := Option.some.inj h3
    exact ⟨rfl, rfl⟩
  · rw [if_pos hp] at h4
    by_cases he : S.scheme = .euler
    · rw [if_pos he] at h4
      obtain ⟨new, h6, h4⟩ := Option.bind_eq_some_iff.mp h4
      obtain rfl := Option.some.inj h4
      exact ⟨he, rfl, rfl, h6⟩
    · rw [if_neg he] at h4
      exact absurd h4 (by simp)
  · rw [if_neg (by omega)] at h4
    obtain rfl := Option.some.inj h4
    exact ⟨rfl, rfl, rfl⟩

/-- An inner Runge-Kutta move. -/
structure MoveParts (S : Settings) (bl tr : Vec3) (c : Config) (st : Stage) (v : Vel) (dt : ℝ)
    (e : Bool) (c' : Config) (e' : Bool) : Prop where
  spheres : 0 < c.P.Ns →
    wrapIf bl tr st.Ot st.Et (euler_timestep c.P.spherePos v.Ua dt) = some c'.P.spherePos ∧
    euler_timestep_rotation c.P.Ns c.P.spherePos c.rots (euler_timestep c.P.spherePos v.Ua dt) v.Oa dt
      = some c'.rots
  noSpheres : c.P.Ns = 0 → c'.P.spherePos = c.P.spherePos ∧ c'.rots = c.rots
  dumbs : 0 < c.P.Nd →
    c'.P.dumbDx = euler_timestep c.P.dumbDx (fun i k => 2 * v.HalfDUb i k) dt ∧
    e' = did_something_go_wrong_with_dumbells e c.P.Nd c'.P.dumbDx S.explosion_protection ∧
    wrapIf bl tr st.Ot st.Et (euler_timestep c.P.dumbPos v.Ub dt) = some c'.P.dumbPos
  noDumbs : c.P.Nd = 0 → c'.P.dumbPos = c.P.dumbPos ∧ c'.P.dumbDx = c.P.dumbDx ∧ e' = e
  sizes : c'.P.Ns = c.P.Ns ∧ c'.P.Nd = c.P.Nd ∧ c'.P.sphereSize = c.P.sphereSize ∧
    c'.P.dumbSize = c.P.dumbSize

theorem move_parts {c c' : Config} {st : Stage} {v : Vel} {dt : ℝ} {e e' : Bool}
    (h : rk4Move S bl tr c st v dt e = some (c', e')) : MoveParts S bl tr c st v dt e c' e' := by
  unfold rk4Move at h
  obtain ⟨sp, h3, h⟩ := Option.bind_eq_some_iff.mp h
  obtain ⟨db, h4, h⟩ := Option.bind_eq_some_iff.mp h
  have h := Option.some.inj h
  simp only [Prod.mk.injEq] at h
  obtain ⟨rfl, rfl⟩ := h
  refine ⟨fun hp => ?_, fun h0 => ?_, fun hp => ?_, fun h0 => ?_, rfl, rfl, rfl, rfl⟩
  · rw [if_pos hp] at h3
    dsimp only at h3
    obtain ⟨rots, h5, h3⟩ := Option.bind_eq_some_iff.mp h3
    obtain ⟨new, h6, h3⟩ := Option.bind_eq_some_iff.mp h3
    obtain rfl := Option.some.inj h3
    exact ⟨h6, h5⟩
  · rw [if_neg (by omega)] at h3
    obtain rfl := Option.some.inj h3
    exact ⟨rfl, rfl⟩
  · rw [if_pos hp] at h4
    dsimp only at h4
    obtain ⟨new, h6, h4⟩ := Option.bind_eq_some_iff.mp h4
    obtain rfl := Option.some.inj h4
    exact ⟨rfl, rfl, h6⟩
  · rw [if_neg (by omega)] at h4
    obtain rfl := Option.some.inj h4
    exact ⟨rfl, rfl, rfl⟩

/-- A Runge-Kutta step. -/
structure Rk4Parts (W : World) (S : Settings) (bl tr : Vec3) (f : ℕ) (c : Config) (lv : Vel)
    (cache : NDMat) (reg : Bool) (r : StepResult) (st : Fin 4 → Stage) (v : Fin 4 → Vel)
    (c1 c2 c3 : Config) (e1 e2 e3 : Bool) : Prop where
  stage1 : generate_output_FTSUOE W S c f cache reg lv = some (st 0)
  stage2 : generate_output_FTSUOE W S c1 (f + 0.5) (st 0).cache (reg && S.rk4_each_stage) lv = some (st 1)
  stage3 : generate_output_FTSUOE W S c2 (f + 0.5) (st 0).cache (reg && S.rk4_each_stage) lv = some (st 2)
  stage4 : generate_output_FTSUOE W S c3 (f + 1) (st 0).cache (reg && S.rk4_each_stage) lv = some (st 3)
  vel1 : stageVel c (st 0) (st 0).out.Ea = some (v 0)
  vel2 : stageVel c (st 1) (st 0).out.Ea = some (v 1)
  vel3 : stageVel c (st 2) (st 2).out.Ea = some (v 2)
  vel4 : stageVel c (st 3) (st 3).out.Ea = some (v 3)
  move1 : rk4Move S bl tr c (st 0) (v 0) (S.timestep / 2) false = some (c1, e1)
  move2 : rk4Move S bl tr c (st 1) (v 1) (S.timestep / 2) e1 = some (c2, e2)
  move3 : rk4Move S bl tr c (st 2) (v 2) S.timestep e2 = some (c3, e3)
  vel_eq : r.lastVel =
    { Ua := if S.fully_2d_problem then zeroY (blend (v 0).Ua (v 1).Ua (v 2).Ua (v 3).Ua)
        else blend (v 0).Ua (v 1).Ua (v 2).Ua (v 3).Ua
      Oa := blend (v 0).Oa (v 1).Oa (v 2).Oa (v 3).Oa
      Ub := blend (v 0).Ub (v 1).Ub (v 2).Ub (v 3).Ub
      HalfDUb := fun i k => 2 * blend (v 0).HalfDUb (v 1).HalfDUb (v 2).HalfDUb (v 3).HalfDUb i k }
  spheres : 0 < c.P.Ns →
    wrapIf bl tr (st 0).Ot (st 0).Et (euler_timestep c.P.spherePos r.lastVel.Ua S.timestep)
      = some r.new.P.spherePos ∧
    euler_timestep_rotation c.P.Ns c.P.spherePos c.rots r.new.P.spherePos r.lastVel.Oa S.timestep
      = some r.new.rots
  noSpheres : c.P.Ns = 0 → r.new.P.spherePos = c.P.spherePos ∧ r.new.rots = c.rots
  dumbs : 0 < c.P.Nd →
    r.new.P.dumbDx = euler_timestep c.P.dumbDx r.lastVel.HalfDUb S.timestep ∧
    r.error = did_something_go_wrong_with_dumbells e3 c.P.Nd r.new.P.dumbDx S.explosion_protection ∧
    wrapIf bl tr (st 0).Ot (st 0).Et (euler_timestep c.P.dumbPos r.lastVel.Ub S.timestep)
      = some r.new.P.dumbPos
  noDumbs : c.P.Nd = 0 → r.new.P.dumbPos = c.P.dumbPos ∧ r.new.P.dumbDx = c.P.dumbDx ∧ r.error = e3
  cache_eq : r.cache = (st 0).cache
  forces_eq : r.forces =
    { Fa := blendRows (st 0).out.Fa (st 1).out.Fa (st 2).out.Fa (st 3).out.Fa
      Fb := blendRows (st 0).out.Fb (st 1).out.Fb (st 2).out.Fb (st 3).out.Fb
      DFb := blendRows (st 0).out.DFb (st 1).out.DFb (st 2).out.DFb (st 3).out.DFb
      Sa := blendMats (st 0).out.Sa (st 1).out.Sa (st 2).out.Sa (st 3).out.Sa }
  sizes : r.new.P.Ns = c.P.Ns ∧ r.new.P.Nd = c.P.Nd ∧ r.new.P.sphereSize = c.P.sphereSize ∧
    r.new.P.dumbSize = c.P.dumbSize

theorem rk4_parts {f : ℕ} {c : Config} {lv : Vel} {cache : NDMat} {reg : Bool} {r : StepResult}
    (h : stepRk4 W S bl tr f c lv cache reg = some r) :
    ∃ st v c1 c2 c3 e1 e2 e3, Rk4Parts W S bl tr f c lv cache reg r st v c1 c2 c3 e1 e2 e3 := by
  unfold stepRk4 at h
  obtain ⟨s1, a1, h⟩ := Option.bind_eq_some_iff.mp h
  obtain ⟨v1, b1, h⟩ := Option.bind_eq_some_iff.mp h
  obtain ⟨⟨c1, e1⟩, m1, h⟩ := Option.bind_eq_some_iff.mp h
  dsimp only at h
  obtain ⟨s2, a2, h⟩ := Option.bind_eq_some_iff.mp h
  obtain ⟨v2, b2, h⟩ := Option.bind_eq_some_iff.mp h
  obtain ⟨⟨c2, e2⟩, m2, h⟩ := Option.bind_eq_some_iff.mp h
  dsimp only at h
  obtain ⟨s3, a3, h⟩ := Option.bind_eq_some_iff.mp h
  obtain ⟨v3, b3, h⟩ := Option.bind_eq_some_iff.mp h
  obtain ⟨⟨c3, e3⟩, m3, h⟩ := Option.bind_eq_some_iff.mp h
  dsimp only at h
  obtain ⟨s4, a4, h⟩ := Option.bind_eq_some_iff.mp h
  obtain ⟨v4, b4, h⟩ := Option.bind_eq_some_iff.mp h
  obtain ⟨sp, h3, h⟩ := Option.bind_eq_some_iff.mp h
  obtain ⟨db, h4, h⟩ := Option.bind_eq_some_iff.mp h
  obtain rfl := Option.some.inj h
  refine ⟨![s1, s2, s3, s4], ![v1, v2, v3, v4], c1, c2, c3, e1, e2, e3, a1, a2, a3, a4, b1, b2, b3, b4, m1, m2,
    m3, rfl, fun hp => ?_, fun h0 => ?_, fun hp => ?_, fun h0 => ?_, rfl, rfl, rfl, rfl, rfl, rfl⟩
  · rw [if_pos hp] at h3
    obtain ⟨new, h5, h3⟩ := Option.bind_eq_some_iff.mp h3
    obtain ⟨rots, h6, h3⟩ := Option.bind_eq_some_iff.mp h3
    obtain rfl := Option.some.inj h3
    exact ⟨h5, h6⟩
  · rw [if_neg (by omega)] at h3
    obtain rfl := Option.some.inj h3
    exact ⟨rfl, rfl⟩
  · rw [if_pos hp] at h4
    obtain ⟨new, h6, h4⟩ := Option.bind_eq_some_iff.mp h4
    obtain rfl := Option.some.inj h4
    exact ⟨rfl, rfl, h6⟩
  · rw [if_neg (by omega)] at h4
    obtain rfl := Option.some.inj h4
    exact ⟨rfl, rfl, rfl⟩

theorem timeStep_cases {f : ℕ} {c : Config} {lv : Vel} {cache : NDMat} {reg : Bool} {r : StepResult}
    (h : timeStep W S bl tr f c lv cache reg = some r) :
    ((S.scheme = .euler ∨ S.scheme = .ab2) ∧ stepEulerAb2 W S bl tr f c lv cache reg = some r) ∨
    (S.scheme = .rk4 ∧ stepRk4 W S bl tr f c lv cache reg = some r) := by
  unfold timeStep at h
  split at h
  · exact .inl ⟨.inl ‹_›, h⟩
  · exact .inl ⟨.inr ‹_›, h⟩
  · exact .inr ⟨‹_›, h⟩
  · exact absurd h (by simp)

theorem timeStep_sizes {f : ℕ} {c : Config} {lv : Vel} {cache : NDMat} {reg : Bool} {r : StepResult}
    (h : timeStep W S bl tr f c lv cache reg = some r) :
    r.new.P.Ns = c.P.Ns ∧ r.new.P.Nd = c.P.Nd ∧ r.new.P.sphereSize = c.P.sphereSize ∧
      r.new.P.dumbSize = c.P.dumbSize := by
  rcases timeStep_cases h with ⟨-, h⟩ | ⟨-, h⟩
  · obtain ⟨_, _, _, hp⟩ := euler_parts h
    exact hp.sizes
  · obtain ⟨_, _, _, _, _, _, _, _, hp⟩ := rk4_parts h
    exact hp.sizes

theorem run_succ {s : State} {k : ℕ} :
    runFrames W S bl tr s (k + 1)
      = (runFrames W S bl tr s k).bind fun s' => generate_frame W S bl tr (S.start + k) s' := rfl

theorem run_prev {s s2 : State} {k : ℕ} (h : runFrames W S bl tr s (k + 1) = some s2) :
    ∃ s1, runFrames W S bl tr s k = some s1 ∧ generate_frame W S bl tr (S.start + k) s1 = some s2 :=
  Option.bind_eq_some_iff.mp h

/-- All earlier states of a run exist, and they are error-free if a later one is. -/
theorem run_earlier {s s2 : State} {k j : ℕ} (hj : j ≤ k) (h : runFrames W S bl tr s k = some s2) :
    ∃ s1, runFrames W S bl tr s j = some s1 ∧ (s2.error = false → s1.error = false) := by
  induction k generalizing s2 with
  | zero =>
    obtain rfl : j = 0 := by omega
    exact ⟨s2, h, id⟩
  | succ k ih =>
    by_cases e : j = k + 1
    · subst e; exact ⟨s2, h, id⟩
    · obtain ⟨s1, h1, h2⟩ := run_prev h
      obtain ⟨s0, h3, h4⟩ := ih (by omega) h1
      refine ⟨s0, h3, fun he => h4 ?_⟩
      by_contra hc
      rw [frame_error (by simpa using hc)] at h2
      obtain rfl := Option.some.inj h2
      exact hc he

theorem run_error {s s1 : State} {k j : ℕ} (h : runFrames W S bl tr s k = some s1) (he : s1.error = true) :
    runFrames W S bl tr s (k + j) = some s1 := by
  induction j with
  | zero => exact h
  | succ j ih =>
    rw [← Nat.add_assoc, run_succ, ih]
    exact frame_error he

theorem wrapIf_nonperiodic {Ot : Vec3} {Et : Mat3} {x y : ℕ → Vec3} (h : ¬ isPeriodic bl tr) :
    wrapIf bl tr Ot Et x = some y ↔ y = x := by
  unfold wrapIf
  rw [if_neg h]
  exact ⟨fun h => (Option.some.inj h).symm, fun h => by rw [h]⟩

end SD
