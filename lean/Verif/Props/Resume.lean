import Verif.Props.Saving

/-!
# C37: resuming from the backup file
-/

set_option autoImplicit false

namespace SD

open Spec

variable {W : World} {S : Settings} {bl tr bl' tr' : Vec3}

/-! ## A step depends on the rotations only through the rotations -/

/-- The input function depends on the positions only, and there is no periodic box. -/
structure Autonomous (W : World) (g : PosData → Option NDMat → UserInput) : Prop where
  input : ∀ c t dt lv R, W.input_ftsuoe c t dt lv R = some (g c.P R)
  noBox : ∀ P R, ¬ isPeriodic (g P R).bl (g P R).tr

theorem grand_regenerate {T : ScalarTable} {P : PosData} {l l' : NDMat} {cut : ℝ} {drag only : Bool} {mu : ℝ}
    {bb : Bool} : generate_grand_resistance_matrix T P l true cut drag only mu bb
      = generate_grand_resistance_matrix T P l' true cut drag only mu bb := by
  unfold generate_grand_resistance_matrix
  rfl

theorem stage_congr {g : PosData → Option NDMat → UserInput} (hW : Autonomous W g) {c c' : Config}
    (hP : c'.P = c.P) {t t' : ℝ} {l l' : NDMat} {reg : Bool} (hl : reg = false → l' = l) {lv lv' : Vel} (m : ℕ) :
    generate_output_FTSUOE W { S with start := m } c' t' l' reg lv' = generate_output_FTSUOE W S c t l reg lv := by
  obtain ⟨P, rots⟩ := c
  obtain ⟨P', rots'⟩ := c'
  obtain rfl : P' = P := hP
  unfold generate_output_FTSUOE
  simp only [hW.input]
  have : ∀ u : UserInput, ¬ isPeriodic u.bl u.tr →
      stageResistance W { S with start := m } ⟨P', rots'⟩ l' reg u = stageResistance W S ⟨P', rots⟩ l reg u := by
    intro u hu
    unfold stageResistance
    rw [if_neg hu, if_neg hu]
    cases reg
    · rw [hl rfl]
    · exact grand_regenerate
  simp only [Option.bind_eq_bind, Option.bind_some, this _ (hW.noBox _ _)]

/-- Arrows of nonzero length. -/
def HasArrows (c : Config) : Prop := ∀ i < c.P.Ns, ∀ j, c.rots i j ≠ c.P.spherePos i

theorem rotation_arrows {n : ℕ} {pos : ℕ → Vec3} {rots : Rots} (h : ∀ i < n, ∀ j, rots i j ≠ pos i)
    (newpos Oa : ℕ → Vec3) (dt : ℝ) :
    ∃ r, euler_timestep_rotation n pos rots newpos Oa dt = some r ∧ ∀ i < n, ∀ j, r i j ≠ newpos i := by
  obtain ⟨r, hr, -⟩ := C28_rotation n pos rots newpos Oa dt h
  refine ⟨r, hr, fun i hi j he => ?_⟩
  have := C28_rigid n pos rots newpos Oa dt r hr i hi j j
  rw [he] at this
  simp only [dotp, sub_self, mul_zero, add_zero] at this
  apply h i hi j
  have h0 : (rots i j 0 - pos i 0) ^ 2 + (rots i j 1 - pos i 1) ^ 2 + (rots i j 2 - pos i 2) ^ 2 = 0 := by
    nlinarith
  funext k
  have hk : (rots i j k - pos i k) ^ 2 = 0 := by
    fin_cases k <;> simp only [Fin.zero_eta, Fin.mk_one, Fin.reduceFinMk] <;>
      nlinarith [sq_nonneg (rots i j 0 - pos i 0), sq_nonneg (rots i j 1 - pos i 1),
        sq_nonneg (rots i j 2 - pos i 2)]
  exact sub_eq_zero.mp (pow_eq_zero_iff (by norm_num) |>.mp hk)

theorem wrapIf_boxes (hbox : ¬ isPeriodic bl tr) (hbox' : ¬ isPeriodic bl' tr') : wrapIf bl tr = wrapIf bl' tr' := by
  funext Ot Et x
  rw [(wrapIf_nonperiodic hbox).mpr rfl, (wrapIf_nonperiodic hbox').mpr rfl]

theorem move_congr (hbox : ¬ isPeriodic bl tr) (hbox' : ¬ isPeriodic bl' tr') {c c' c1 : Config} (hP : c'.P = c.P) (ha : HasArrows c')
    {st : Stage} {v : Vel} {dt : ℝ} {e e1 : Bool} (m : ℕ)
    (h : rk4Move S bl tr c st v dt e = some (c1, e1)) :
    ∃ c1', rk4Move { S with start := m } bl' tr' c' st v dt e = some (c1', e1) ∧ c1'.P = c1.P := by
  obtain ⟨P, rots⟩ := c
  obtain ⟨P', rots'⟩ := c'
  obtain rfl : P' = P := hP
  unfold rk4Move at h
  obtain ⟨sp, h3, h⟩ := Option.bind_eq_some_iff.mp h
  obtain ⟨db, h4, h⟩ := Option.bind_eq_some_iff.mp h
  rw [wrapIf_boxes hbox hbox'] at h3 h4
  have h := Option.some.inj h
  simp only [Prod.mk.injEq] at h
  obtain ⟨rfl, rfl⟩ := h
  have key : ∃ sp' : (ℕ → Vec3) × Rots, (if 0 < P'.Ns then do
      let new := euler_timestep P'.spherePos v.Ua dt
      let rots ← euler_timestep_rotation P'.Ns P'.spherePos rots' new v.Oa dt
      let new ← wrapIf bl' tr' st.Ot st.Et new
      some (new, rots)
    else some (P'.spherePos, rots') : Option ((ℕ → Vec3) × Rots)) = some sp' ∧ sp'.1 = sp.1 := by
    by_cases hp : 0 < P'.Ns
    · rw [if_pos hp] at h3 ⊢
      obtain ⟨r0, -, h3⟩ := Option.bind_eq_some_iff.mp h3
      obtain ⟨n0, h6, h3⟩ := Option.bind_eq_some_iff.mp h3
      obtain rfl := Option.some.inj h3
      obtain ⟨r, hr, -⟩ := rotation_arrows ha (euler_timestep P'.spherePos v.Ua dt) v.Oa dt
      exact ⟨(n0, r), Option.bind_eq_some_iff.mpr ⟨r, hr, Option.bind_eq_some_iff.mpr ⟨n0, h6, rfl⟩⟩, rfl⟩
    · rw [if_neg hp] at h3 ⊢
      obtain rfl := Option.some.inj h3
      exact ⟨_, rfl, rfl⟩
  obtain ⟨sp', k1, k2⟩ := key
  refine ⟨⟨{ P' with spherePos := sp'.1, dumbPos := db.1, dumbDx := db.2.1 }, sp'.2⟩, ?_, ?_⟩
  · unfold rk4Move
    exact Option.bind_eq_some_iff.mpr ⟨sp', k1, Option.bind_eq_some_iff.mpr ⟨db, h4, rfl⟩⟩
  · rw [k2]

theorem step_congr {g : PosData → Option NDMat → UserInput} (hW : Autonomous W g)
    (hbox : ¬ isPeriodic bl tr) (hbox' : ¬ isPeriodic bl' tr') (hsch : S.scheme = .euler ∨ S.scheme = .rk4) {c c' : Config}
    (hP : c'.P = c.P) (ha : HasArrows c') {f f' : ℕ} {lv lv' : Vel} {l l' : NDMat} {r : StepResult} (m : ℕ)
    (h : timeStep W S bl tr f c lv l true = some r) :
    ∃ r', timeStep W { S with start := m } bl' tr' f' c' lv' l' true = some r' ∧ r'.new.P = r.new.P ∧
      r'.error = r.error ∧ r'.forces = r.forces ∧ HasArrows r'.new := by
  have hout : ∀ {d d' : Config} {t t' : ℝ} {q q' : NDMat} {reg : Bool}, d'.P = d.P → (reg = false → q' = q) →
      generate_output_FTSUOE W { S with start := m } d' t' q' reg lv' = generate_output_FTSUOE W S d t q reg lv :=
    fun hp hq => stage_congr hW hp hq m
  rcases timeStep_cases h with ⟨hs, hh⟩ | ⟨hs, hh⟩
  · have hs : S.scheme = .euler := by
      rcases hsch with h | h
      · exact h
      · rw [h] at hs; simp at hs
    have hts : timeStep W { S with start := m } bl' tr' f' c' lv' l' true
        = stepEulerAb2 W { S with start := m } bl' tr' f' c' lv' l' true := by
      unfold timeStep
      simp only [hs]
    rw [hts]
    have hst := hout (t := f) (t' := f') (q := l) (q' := l') (reg := true) hP (by simp)
    obtain ⟨P, rots⟩ := c
    obtain ⟨P', rots'⟩ := c'
    obtain rfl : P' = P := hP
    unfold stepEulerAb2 at hh ⊢
    obtain ⟨st, h1, hh⟩ := Option.bind_eq_some_iff.mp hh
    obtain ⟨v0, h2, hh⟩ := Option.bind_eq_some_iff.mp hh
    obtain ⟨sp, h3, hh⟩ := Option.bind_eq_some_iff.mp hh
    obtain ⟨db, h4, hh⟩ := Option.bind_eq_some_iff.mp hh
    rw [wrapIf_boxes hbox hbox'] at h3 h4
    obtain rfl := Option.some.inj hh
    rw [h1] at hst
    have key : ∃ sp' : (ℕ → Vec3) × Rots, (if 0 < P'.Ns then do
        let v : Vel := if S.fully_2d_problem then { v0 with Ua := zeroY v0.Ua } else v0
        let new := if S.scheme = .euler ∨ f' - m = 0 then euler_timestep P'.spherePos v.Ua S.timestep
          else ab2_timestep P'.spherePos v.Ua lv'.Ua S.timestep
        let rots ←
          (if S.scheme = .euler ∨ f' - m = 0 then
            euler_timestep_rotation P'.Ns P'.spherePos rots' new v.Oa S.timestep
          else ab2_timestep_rotation P'.Ns P'.spherePos rots' new v.Oa lv'.Oa S.timestep : Option Rots)
        let new ← wrapIf bl' tr' st.Ot st.Et new
        some (new, rots)
      else some (P'.spherePos, rots') : Option ((ℕ → Vec3) × Rots)) = some sp' ∧ sp'.1 = sp.1 ∧
        ∀ i < P'.Ns, ∀ j, sp'.2 i j ≠ sp'.1 i := by
      by_cases hp : 0 < P'.Ns
      · rw [if_pos hp] at h3 ⊢
        simp only [if_pos (show S.scheme = .euler ∨ f - S.start = 0 from .inl hs)] at h3
        simp only [if_pos (show S.scheme = .euler ∨ f' - m = 0 from .inl hs)]
        obtain ⟨r0, -, h3⟩ := Option.bind_eq_some_iff.mp h3
        obtain ⟨n0, h6, h3⟩ := Option.bind_eq_some_iff.mp h3
        obtain rfl := Option.some.inj h3
        have e6 := (wrapIf_nonperiodic hbox').mp h6
        obtain ⟨r, hr, hr2⟩ := rotation_arrows ha (euler_timestep P'.spherePos
          (if S.fully_2d_problem then { v0 with Ua := zeroY v0.Ua } else v0 : Vel).Ua S.timestep)
          (if S.fully_2d_problem then { v0 with Ua := zeroY v0.Ua } else v0 : Vel).Oa S.timestep
        exact ⟨(n0, r), Option.bind_eq_some_iff.mpr ⟨r, hr, Option.bind_eq_some_iff.mpr ⟨n0, h6, rfl⟩⟩, rfl,
          fun i hi j => by rw [e6]; exact hr2 i hi j⟩
      · rw [if_neg hp] at h3 ⊢
        obtain rfl := Option.some.inj h3
        exact ⟨_, rfl, rfl, fun i hi => absurd hi (by omega)⟩
    obtain ⟨sp', k1, k2, k3⟩ := key
    refine ⟨_, Option.bind_eq_some_iff.mpr ⟨st, hst, Option.bind_eq_some_iff.mpr ⟨v0, h2,
      Option.bind_eq_some_iff.mpr ⟨sp', k1, Option.bind_eq_some_iff.mpr ⟨db, h4, rfl⟩⟩⟩⟩, ?_, rfl, rfl, k3⟩
    dsimp only
    rw [k2]
  · have hts : timeStep W { S with start := m } bl' tr' f' c' lv' l' true
        = stepRk4 W { S with start := m } bl' tr' f' c' lv' l' true := by
      unfold timeStep
      simp only [hs]
    rw [hts]
    have hst1 := hout (t := f) (t' := f') (q := l) (q' := l') (reg := true) hP (by simp)
    unfold stepRk4 at hh ⊢
    obtain ⟨s1, a1, hh⟩ := Option.bind_eq_some_iff.mp hh
    obtain ⟨v1, b1, hh⟩ := Option.bind_eq_some_iff.mp hh
    obtain ⟨⟨c1, e1⟩, m1, hh⟩ := Option.bind_eq_some_iff.mp hh
    dsimp only at hh
    obtain ⟨s2, a2, hh⟩ := Option.bind_eq_some_iff.mp hh
    obtain ⟨v2, b2, hh⟩ := Option.bind_eq_some_iff.mp hh
    obtain ⟨⟨c2, e2⟩, m2, hh⟩ := Option.bind_eq_some_iff.mp hh
    dsimp only at hh
    obtain ⟨s3, a3, hh⟩ := Option.bind_eq_some_iff.mp hh
    obtain ⟨v3, b3, hh⟩ := Option.bind_eq_some_iff.mp hh
    obtain ⟨⟨c3, e3⟩, m3, hh⟩ := Option.bind_eq_some_iff.mp hh
    dsimp only at hh
    obtain ⟨s4, a4, hh⟩ := Option.bind_eq_some_iff.mp hh
    obtain ⟨v4, b4, hh⟩ := Option.bind_eq_some_iff.mp hh
    obtain ⟨sp, h3, hh⟩ := Option.bind_eq_some_iff.mp hh
    obtain ⟨db, h4, hh⟩ := Option.bind_eq_some_iff.mp hh
    rw [wrapIf_boxes hbox hbox'] at h3 h4
    obtain rfl := Option.some.inj hh
    obtain ⟨c1', m1', p1⟩ := move_congr hbox hbox' hP ha m m1
    obtain ⟨c2', m2', p2⟩ := move_congr hbox hbox' hP ha m m2
    obtain ⟨c3', m3', p3⟩ := move_congr hbox hbox' hP ha m m3
    have hst2 := (hout (t := f + 0.5) (t' := f' + 0.5) (q := s1.cache) (q' := s1.cache)
      (reg := true && S.rk4_each_stage) p1 (fun _ => rfl)).trans a2
    have hst3 := (hout (t := f + 0.5) (t' := f' + 0.5) (q := s1.cache) (q' := s1.cache)
      (reg := true && S.rk4_each_stage) p2 (fun _ => rfl)).trans a3
    have hst4 := (hout (t := f + 1) (t' := f' + 1) (q := s1.cache) (q' := s1.cache)
      (reg := true && S.rk4_each_stage) p3 (fun _ => rfl)).trans a4
    rw [a1] at hst1
    obtain ⟨P, rots⟩ := c
    obtain ⟨P', rots'⟩ := c'
    obtain rfl : P' = P := hP
    have key : ∃ sp' : (ℕ → Vec3) × Rots, (if 0 < P'.Ns then do
        let new ← wrapIf bl' tr' s1.Ot s1.Et (euler_timestep P'.spherePos
          (if S.fully_2d_problem then zeroY (blend v1.Ua v2.Ua v3.Ua v4.Ua) else blend v1.Ua v2.Ua v3.Ua v4.Ua)
          S.timestep)
        let rots ← euler_timestep_rotation P'.Ns P'.spherePos rots' new (blend v1.Oa v2.Oa v3.Oa v4.Oa) S.timestep
        some (new, rots)
      else some (P'.spherePos, rots') : Option ((ℕ → Vec3) × Rots)) = some sp' ∧ sp'.1 = sp.1 ∧
        ∀ i < P'.Ns, ∀ j, sp'.2 i j ≠ sp'.1 i := by
      by_cases hp : 0 < P'.Ns
      · rw [if_pos hp] at h3 ⊢
        obtain ⟨n0, h6, h3⟩ := Option.bind_eq_some_iff.mp h3
        obtain ⟨r0, -, h3⟩ := Option.bind_eq_some_iff.mp h3
        obtain rfl := Option.some.inj h3
        obtain ⟨r, hr, hr2⟩ := rotation_arrows ha n0 (blend v1.Oa v2.Oa v3.Oa v4.Oa) S.timestep
        exact ⟨(n0, r), Option.bind_eq_some_iff.mpr ⟨n0, h6, Option.bind_eq_some_iff.mpr ⟨r, hr, rfl⟩⟩, rfl,
          hr2⟩
      · rw [if_neg hp] at h3 ⊢
        obtain rfl := Option.some.inj h3
        exact ⟨_, rfl, rfl, fun i hi => absurd hi (by omega)⟩
    obtain ⟨sp', k1, k2, k3⟩ := key
    refine ⟨_, Option.bind_eq_some_iff.mpr ⟨s1, hst1, Option.bind_eq_some_iff.mpr ⟨v1, b1,
      Option.bind_eq_some_iff.mpr ⟨(c1', e1), m1', Option.bind_eq_some_iff.mpr ⟨s2, hst2,
      Option.bind_eq_some_iff.mpr ⟨v2, b2, Option.bind_eq_some_iff.mpr ⟨(c2', e2), m2',
      Option.bind_eq_some_iff.mpr ⟨s3, hst3, Option.bind_eq_some_iff.mpr ⟨v3, b3,
      Option.bind_eq_some_iff.mpr ⟨(c3', e3), m3', Option.bind_eq_some_iff.mpr ⟨s4, hst4,
      Option.bind_eq_some_iff.mpr ⟨v4, b4, Option.bind_eq_some_iff.mpr ⟨sp', k1,
      Option.bind_eq_some_iff.mpr ⟨db, h4, rfl⟩⟩⟩⟩⟩⟩⟩⟩⟩⟩⟩⟩⟩, ?_, rfl, rfl, k3⟩
    dsimp only
    rw [k2]

/-! ## C37 -/

/-- The settings of the claim: saving and refreshing every frame from frame 0, backups on, a one-step scheme. -/
structure EveryFrame (S : Settings) : Prop where
  start : S.start = 0
  start_saving : S.start_saving = 0
  positions : S.save_positions_every = 1
  forces : S.save_forces_every = 1
  temp : 0 < S.save_to_temp_every
  on : S.save_to_temp = true
  invert : S.invert_m_every = 1
  scheme : S.scheme = .euler ∨ S.scheme = .rk4

theorem everyNth_one (k : ℕ) : everyNth 1 k = List.range k := by
  unfold everyNth
  rw [Nat.add_sub_cancel, Nat.div_one]
  simp

theorem regen_one (h : S.invert_m_every = 1) (f : ℕ) : regen S f = true := by
  unfold regen
  rw [h]
  simp [Nat.mod_one]

/-- The run resumed with the first `g + 1` saved entries, after `i` frames, compared with the uninterrupted
run after `g + i` frames. -/
theorem resumed_run {U : PosData → Option NDMat → UserInput} (hW : Autonomous W U) (hS : EveryFrame S)
    (hbox : ¬ isPeriodic bl tr) (hbox' : ¬ isPeriodic bl' tr') {s0 sN : State} (hN : runFrames W S bl tr s0 S.num_frames = some sN)
    (herr : ∀ j < S.num_frames, ∀ s, runFrames W S bl tr s0 j = some s → s.error = false)
    {g : ℕ} {q : State} (hqP : q.posdata.P = (trajectory W S bl tr s0 g).P) (hqa : HasArrows q.posdata)
    (hqe : q.error = false)
    (hqp : q.savedPos = some ((List.range (g + 1)).map (trajectory W S bl tr s0)))
    (hqf : q.savedForces = some ((List.range (g + 1)).map (forceRecord W S bl tr s0)))
    {i : ℕ} (hi : g + i + 1 ≤ S.num_frames) :
    ∃ s p, runFrames W { S with start := g + 1 } bl' tr' q i = some s ∧ s.error = false ∧
      s.posdata.P = (trajectory W S bl tr s0 (g + i)).P ∧ HasArrows s.posdata ∧ s.savedPos = some p ∧
      p.map Config.P = ((List.range (max (g + 1) (g + i))).map (trajectory W S bl tr s0) ++
        if 0 < i ∧ g + i + 1 = S.num_frames then [trajectory W S bl tr s0 (g + i)] else []).map Config.P ∧
      s.savedForces = some ((List.range (max (g + 1) (g + i))).map (forceRecord W S bl tr s0)) := by
  induction i with
  | zero =>
    refine ⟨q, _, rfl, hqe, hqP, hqa, hqp, ?_, ?_⟩
    · rw [if_neg (by omega), List.append_nil, Nat.add_zero, max_eq_left (by omega)]
    · rw [Nat.add_zero, max_eq_left (by omega)]; exact hqf
  | succ i ih =>
    obtain ⟨s, p, h1, h2, h3, h4, h5, h6, h7⟩ := ih (by omega)
    obtain ⟨u, hu, -⟩ := run_earlier (j := g + i) (by omega) hN
    obtain ⟨u', hu', -⟩ := run_earlier (j := g + i + 1) (by omega) hN
    obtain ⟨u1, w1, w2⟩ := run_prev hu'
    obtain rfl := Option.some.inj (hu.symm.trans w1)
    obtain ⟨-, r, a1, a2, a3, -⟩ := frame_some (herr _ (by omega) _ hu) w2
    have a1' := a1
    unfold frameStep at a1
    rw [regen_one hS.invert] at a1
    obtain ⟨r', b1, b2, b3, b4, b5⟩ := step_congr hW hbox hbox' hS.scheme (c' := s.posdata)
      (h3.trans (by rw [trajectory_eq hu])) h4 (f' := g + 1 + i) (lv' := velIn { S with start := g + 1 } (g + 1 + i) s)
      (l' := cacheIn { S with start := g + 1 } (g + 1 + i) s) (g + 1) a1
    have b1' : frameStep W { S with start := g + 1 } bl' tr' (g + 1 + i) s = some r' := by
      unfold frameStep
      rw [regen_one (S := { S with start := g + 1 }) hS.invert]
      exact b1
    have hF : forceRecord W S bl tr s0 (g + i) = r'.forces := (forceRecord_eq hu a1').trans b4.symm
    have hX : trajectory W S bl tr s0 (g + i + 1) = r.new := (trajectory_eq hu').trans a2
    have hstart : ({ S with start := g + 1 } : Settings).start = g + 1 := rfl
    obtain ⟨p1, c1, c2⟩ : ∃ p1, savePositions { S with start := g + 1 } (g + 1 + i) s.posdata r'.new s.savedPos
        = some (some p1) ∧ p1.map Config.P = ((List.range (max (g + 1) (g + (i + 1)))).map (trajectory W S bl tr s0) ++
        if 0 < i + 1 ∧ g + (i + 1) + 1 = S.num_frames then [trajectory W S bl tr s0 (g + (i + 1))] else []).map
          Config.P := by
      obtain ⟨p0, d1, d2⟩ : ∃ p0, (if g + 1 + i = S.start_saving then some (some [s.posdata])
          else if g + 1 + i ≠ g + 1 then (some p : Option (List Config)).map fun l => some (l ++ [s.posdata])
          else some (some p)) = some (some p0) ∧
          p0.map Config.P = ((List.range (max (g + 1) (g + (i + 1)))).map (trajectory W S bl tr s0)).map Config.P := by
        rw [hS.start_saving, if_neg (by omega)]
        by_cases hz : i = 0
        · subst hz
          refine ⟨p, by rw [if_neg (by omega)], ?_⟩
          rw [h6, if_neg (by omega), List.append_nil, max_eq_left (by omega), max_eq_left (by omega)]
        · refine ⟨p ++ [s.posdata], by rw [if_pos (by omega)]; rfl, ?_⟩
          rw [List.map_append, h6, if_neg (by omega), List.append_nil, max_eq_right (by omega),
            max_eq_right (by omega), ← Nat.add_assoc, List.range_succ, List.map_append, List.map_append]
          simp [h3]
      have hgate : ({ S with start := g + 1 } : Settings).save_positions_every > 0 ∧
          (g + 1 + i) % ({ S with start := g + 1 } : Settings).save_positions_every = 0 ∧
          g + 1 + i ≥ ({ S with start := g + 1 } : Settings).start_saving := by
        dsimp only
        rw [hS.positions, hS.start_saving]
        exact ⟨by omega, Nat.mod_one _, by omega⟩
      unfold savePositions
      rw [if_pos hgate, h5]
      by_cases hl : g + (i + 1) + 1 = S.num_frames
      · refine ⟨p0 ++ [r'.new], ?_, ?_⟩
        · refine Option.bind_eq_some_iff.mpr ⟨_, d1, ?_⟩
          rw [if_pos (by dsimp only; omega)]
          rfl
        · rw [if_pos ⟨by omega, hl⟩, List.map_append, List.map_append, d2]
          simp only [List.map_cons, List.map_nil]
          rw [b2, ← Nat.add_assoc, hX]
      · refine ⟨p0, ?_, ?_⟩
        · refine Option.bind_eq_some_iff.mpr ⟨_, d1, ?_⟩
          rw [if_neg (by dsimp only; omega)]
        · rw [if_neg (by omega), List.append_nil, d2]
    have e1 : saveForces { S with start := g + 1 } (g + 1 + i) r'.forces s.savedForces
        = some (some ((List.range (max (g + 1) (g + (i + 1)))).map (forceRecord W S bl tr s0))) := by
      have hgate : ({ S with start := g + 1 } : Settings).save_forces_every > 0 ∧
          (g + 1 + i) % ({ S with start := g + 1 } : Settings).save_forces_every = 0 ∧
          g + 1 + i ≥ ({ S with start := g + 1 } : Settings).start_saving := by
        dsimp only
        rw [hS.forces, hS.start_saving]
        exact ⟨by omega, Nat.mod_one _, by omega⟩
      unfold saveForces
      rw [if_pos hgate, if_neg (by dsimp only; rw [hS.start_saving]; omega), h7]
      by_cases hz : i = 0
      · subst hz
        rw [if_neg (by dsimp only; omega), max_eq_left (by omega), max_eq_left (by omega)]
      · rw [if_pos (by dsimp only; omega), max_eq_right (by omega), max_eq_right (by omega), ← Nat.add_assoc,
          List.range_succ, List.map_append]
        simp [hF]
    obtain ⟨t, f1⟩ : ∃ t, saveTemp { S with start := g + 1 } (g + 1 + i) (some p1)
        (some ((List.range (max (g + 1) (g + (i + 1)))).map (forceRecord W S bl tr s0))) s.temp = some t := by
      have ht := hS.temp
      unfold saveTemp
      rw [if_pos (by dsimp only; rw [hS.positions]; omega), if_neg (by dsimp only; omega)]
      split
      · exact ⟨_, rfl⟩
      · exact ⟨_, rfl⟩
    refine ⟨⟨r'.new, r'.error, r'.cache, r'.lastVel, some p1,
      some ((List.range (max (g + 1) (g + (i + 1)))).map (forceRecord W S bl tr s0)), t⟩, p1, ?_, ?_, ?_, ?_, rfl, c2,
      rfl⟩
    · rw [run_succ, h1]
      show generate_frame W { S with start := g + 1 } bl' tr' (g + 1 + i) s = _
      rw [frame_eq h2 (by dsimp only; rw [hS.invert]; omega), b1', Option.bind_some, c1, Option.bind_some, e1,
        Option.bind_some, f1, Option.bind_some]
    · show r'.error = false
      rw [b3, ← a3]
      exact herr _ (by omega) _ hu'
    · show r'.new.P = _
      rw [b2, ← Nat.add_assoc, hX]
    · exact b5

theorem run_sizes {s0 s : State} {k : ℕ} (h : runFrames W S bl tr s0 k = some s) :
    s.posdata.P.Ns = s0.posdata.P.Ns ∧ s.posdata.P.Nd = s0.posdata.P.Nd ∧
      s.posdata.P.sphereSize = s0.posdata.P.sphereSize ∧ s.posdata.P.dumbSize = s0.posdata.P.dumbSize := by
  induction k generalizing s with
  | zero => obtain rfl := Option.some.inj h; exact ⟨rfl, rfl, rfl, rfl⟩
  | succ k ih =>
    obtain ⟨s1, g1, g2⟩ := run_prev h
    obtain ⟨a, b, c, d⟩ := ih g1
    by_cases he : s1.error = true
    · rw [frame_error he] at g2
      obtain rfl := Option.some.inj g2
      exact ⟨a, b, c, d⟩
    · obtain ⟨-, r, a1, a2, -⟩ := frame_some (by simpa using he) g2
      obtain ⟨a', b', c', d'⟩ := timeStep_sizes a1
      rw [a2]
      exact ⟨a'.trans a, b'.trans b, c'.trans c, d'.trans d⟩

theorem defaultRots_arrows {P : PosData} (h : ∀ i < P.Ns, P.sphereSize i ≠ 0) :
    HasArrows ⟨P, defaultRots P.spherePos P.sphereSize⟩ := by
  intro i hi j hc
  have hs := h i hi
  unfold defaultRots at hc
  fin_cases j
  · have := congrFun hc 0
    simp at this
    exact hs this
  · have := congrFun hc 2
    simp at this
    exact hs this

/-- The state in which a run is resumed at the positions `P` with the saved lists `d`. -/
noncomputable def resumedAt (P : PosData) (d : Saved) : State where
  posdata := ⟨P, defaultRots P.spherePos P.sphereSize⟩
  error := false
  cache := NDMat.zeros 1 1
  lastVel := Vel.blank
  savedPos := some d.positions
  savedForces := some d.forces
  temp := some d

/-- **C37, partial.** A run of `N` frames that saves every frame is killed after `j` frames and resumed from its
backup `d`. If the backup was made before the last frame, the resumed run completes and its file agrees
with the file of the uninterrupted run except that the last entry, the final configuration and the last force
record, is missing. If the backup was made in the last frame, the two files agree.

The full claim, that the two files always agree, is false: see `C37_last_entry_lost`. Besides, equality is shown
for the positions (the rotations are reset on resuming), without a periodic box, for input functions that
depend on the positions only: the frame counter of the resumed run is one ahead. -/
theorem C37_resume_partial {U : PosData → Option NDMat → UserInput} (hW : Autonomous W U) (hS : EveryFrame S)
    {c : Config} (hsize : ∀ i < c.P.Ns, c.P.sphereSize i ≠ 0) {file left : Option Saved}
    (hprog : program W S (State.fresh c) = some (file, left))
    (herr : ∀ j < S.num_frames, ∀ s, runFrames W S (U c.P none).bl (U c.P none).tr (State.fresh c) j = some s →
      s.error = false)
    {j : ℕ} (hj : j ≤ S.num_frames) {s : State}
    (hs : runFrames W S (U c.P none).bl (U c.P none).tr (State.fresh c) j = some s) {d : Saved}
    (hd : s.temp = some d) :
    ∃ D S' s' D' left', file = some D ∧ resume S c d = some (S', s') ∧
      program W S' s' = some (some D', left') ∧
      (d.positions.length < S.num_frames →
        D'.positions.map Config.P = (D.positions.map Config.P).dropLast ∧ D'.forces = D.forces.dropLast) ∧
      (S.num_frames ≤ d.positions.length → D'.positions = D.positions ∧ D'.forces = D.forces) := by
  set bl := (U c.P none).bl
  set tr := (U c.P none).tr
  have hbox : ¬ isPeriodic bl tr := hW.noBox _ _
  have hn : 0 < S.save_positions_every := by rw [hS.positions]; omega
  have hm : 0 < S.save_forces_every := by rw [hS.forces]; omega
  have hj0 : 0 < j := by
    rcases Nat.eq_zero_or_pos j with rfl | h
    · obtain rfl := Option.some.inj hs; cases hd
    · exact h
  obtain ⟨g, hg1, -, -, hg2⟩ := C36_age hS.start hS.start_saving hn hm hS.temp hS.on hj0 hj hs
    (fun i hi => herr i (by omega))
  obtain rfl := Option.some.inj (hd.symm.trans hg2)
  have hfile := C35_saved hS.start hS.start_saving hn hm (hW.input c 0 0.1 Vel.blank none) hprog
    (K := S.num_frames) (by omega) le_rfl herr (fun h => absurd h (by omega))
  dsimp only at hfile
  unfold program at hprog
  rw [hW.input] at hprog
  obtain ⟨_, hu0, hprog⟩ := Option.bind_eq_some_iff.mp hprog
  obtain rfl := Option.some.inj hu0
  obtain ⟨sN, hN, -⟩ := Option.bind_eq_some_iff.mp hprog
  change runFrames W S bl tr (State.fresh c) (S.num_frames - S.start) = some sN at hN
  change file = some (Saved.mk ((everyNth S.save_positions_every S.num_frames).map
      (trajectory W S bl tr (State.fresh c)) ++ if S.num_frames = S.num_frames ∧
        S.save_positions_every ∣ S.num_frames - 1 then [trajectory W S bl tr (State.fresh c) S.num_frames] else [])
      ((everyNth S.save_forces_every S.num_frames).map (forceRecord W S bl tr (State.fresh c)))) at hfile
  rw [hS.start, Nat.sub_zero] at hN
  set X := trajectory W S bl tr (State.fresh c)
  set Φ := forceRecord W S bl tr (State.fresh c)
  rw [hS.forces, hS.positions, everyNth_one, if_pos ⟨rfl, Nat.one_dvd _⟩] at hfile
  have hd1 : savedUpTo S X (g + 1) = (List.range (g + 1)).map X ++ if g + 1 = S.num_frames then [X (g + 1)] else [] := by
    unfold savedUpTo
    rw [hS.positions, everyNth_one]
    simp only [one_dvd, and_true]
  rw [hS.forces, everyNth_one, hd1]
  subst hfile
  refine ⟨⟨(List.range S.num_frames).map X ++ [X S.num_frames], (List.range S.num_frames).map Φ⟩, ?_⟩
  have hX : ∀ k ≤ S.num_frames, (X k).P.Ns = c.P.Ns ∧ (X k).P.sphereSize = c.P.sphereSize ∧
      (X k).P.dumbSize = c.P.dumbSize := by
    intro k hk
    obtain ⟨sk, hk, -⟩ := run_earlier hk hN
    obtain ⟨a, -, b, d⟩ := run_sizes hk
    rw [show X k = sk.posdata from trajectory_eq hk]
    exact ⟨a, b, d⟩
  have hback : ∀ k ≤ S.num_frames,
      ({ (X k).P with sphereSize := c.P.sphereSize, dumbSize := c.P.dumbSize } : PosData) = (X k).P := by
    intro k hk
    obtain ⟨-, a, b⟩ := hX k hk
    rw [← a, ← b]
  by_cases hlast : g + 1 = S.num_frames
  · -- the backup of the last frame
    have hres : resume S c ⟨(List.range (g + 1)).map X ++ [X (g + 1)], (List.range (g + 1)).map Φ⟩
        = some ({ S with start := g + 2 },
          resumedAt (X (g + 1)).P ⟨(List.range (g + 1)).map X ++ [X (g + 1)], (List.range (g + 1)).map Φ⟩) := by
      unfold resume resumedAt
      simp only [List.getLast?_append, List.getLast?_singleton, Option.some_or, Option.map_some, List.length_append,
        List.length_map, List.length_range, List.length_cons, List.length_nil]
      rw [hback _ (by omega), (hX (g + 1) (by omega)).2.1]
    refine ⟨{ S with start := g + 2 },
      resumedAt (X (g + 1)).P ⟨(List.range (g + 1)).map X ++ [X (g + 1)], (List.range (g + 1)).map Φ⟩,
      ⟨(List.range (g + 1)).map X ++ [X (g + 1)], (List.range (g + 1)).map Φ⟩, none, rfl, ?_, ?_, ?_, ?_⟩
    · rw [if_pos hlast]
      exact hres
    · unfold program
      rw [hW.input]
      refine Option.bind_eq_some_iff.mpr ⟨_, rfl, ?_⟩
      rw [show ({ S with start := g + 2 } : Settings).num_frames - (g + 2) = 0 by dsimp only; omega]
      refine Option.bind_eq_some_iff.mpr ⟨_, rfl, ?_⟩
      unfold finalSave
      rw [if_pos (.inl (by exact hm))]
      rfl
    · intro h
      rw [if_pos hlast] at h
      simp at h
      omega
    · intro _
      rw [← hlast]
      exact ⟨rfl, rfl⟩
  · have hres : resume S c ⟨(List.range (g + 1)).map X, (List.range (g + 1)).map Φ⟩
        = some ({ S with start := g + 1 },
          resumedAt (X g).P ⟨(List.range (g + 1)).map X, (List.range (g + 1)).map Φ⟩) := by
      unfold resume resumedAt
      simp only [List.range_succ, List.map_append, List.map_cons, List.map_nil, List.getLast?_append,
        List.getLast?_singleton, Option.some_or, Option.map_some, List.length_append,
        List.length_map, List.length_range, List.length_cons, List.length_nil]
      rw [hback _ (by omega), (hX g (by omega)).2.1]
    obtain ⟨q, p, r1, r2, r3, r4, r5, r6, r7⟩ := resumed_run (g := g) (i := S.num_frames - (g + 1)) hW hS hbox (hW.noBox (X g).P none) hN herr
      (q := resumedAt (X g).P ⟨(List.range (g + 1)).map X, (List.range (g + 1)).map Φ⟩) rfl
      (defaultRots_arrows fun i hi => by
        obtain ⟨a, b, -⟩ := hX g (by omega)
        rw [b]; exact hsize i (a ▸ hi)) rfl rfl rfl (by omega)
    refine ⟨{ S with start := g + 1 },
      resumedAt (X g).P ⟨(List.range (g + 1)).map X, (List.range (g + 1)).map Φ⟩,
      ⟨p, (List.range (max (g + 1) (g + (S.num_frames - (g + 1))))).map Φ⟩, none, rfl, ?_, ?_, ?_, ?_⟩
    · rw [if_neg hlast, List.append_nil]
      exact hres
    · unfold program
      rw [hW.input]
      refine Option.bind_eq_some_iff.mpr ⟨_, rfl, ?_⟩
      refine Option.bind_eq_some_iff.mpr ⟨q, ?_, ?_⟩
      · exact r1
      · unfold finalSave
        rw [if_pos (.inl (by exact hm)), r5, r7]
        rfl
    · intro _
      have e : g + (S.num_frames - (g + 1)) + 1 = S.num_frames := by omega
      have e' : g + (S.num_frames - (g + 1)) = S.num_frames - 1 := by omega
      rw [max_eq_right (by omega), if_pos ⟨by omega, e⟩, e'] at r6
      rw [max_eq_right (by omega), e']
      have hr : List.range S.num_frames = List.range (S.num_frames - 1) ++ [S.num_frames - 1] := by
        rw [← List.range_succ]
        congr 1
        omega
      constructor
      · rw [r6, List.map_append, List.map_append, List.map_singleton, List.map_singleton, List.dropLast_concat, hr, List.map_append,
          List.map_append]
        rfl
      · show _ = ((List.range S.num_frames).map Φ).dropLast
        rw [hr, List.map_append, List.map_singleton, List.dropLast_concat]
    · intro h
      rw [if_neg hlast] at h
      simp at h
      omega

/-- The settings of the example: ten frames, all saved, a backup every fourth frame. -/
noncomputable def resumeSettings : Settings :=
  { loneSettings .rk4 10 with invert_m_every := 1, save_positions_every := 1, save_forces_every := 1,
                              save_to_temp_every := 4 }

theorem resumeSettings_every : EveryFrame resumeSettings := by
  constructor <;> simp [resumeSettings, loneSettings]

theorem resumeSettings_ok : LoneSettings resumeSettings := by
  have := loneSettings_ok (sch := .rk4) (by decide) 10
  exact ⟨this.form, this.ext, this.drag, this.only, this.cutoff, this.scheme, by simp [resumeSettings]⟩

theorem resumeSettings_save : SaveSettings resumeSettings := by
  constructor <;> simp [resumeSettings, loneSettings]

theorem lone_autonomous (V : Vec3) : Autonomous (loneWorld (fun _ => V) 0 0 0 0) (fun _ _ => loneUser V 0 0 0 0) :=
  ⟨fun _ _ _ _ _ => rfl, fun _ _ => not_periodic_zero⟩

/-- **C37** fails: a lone sphere that moves with a constant velocity for ten frames, killed after seven frames and
resumed from its backup of frame 4. The uninterrupted run saves eleven configurations and ten force
records, the resumed run one fewer of each. -/
theorem C37_last_entry_lost (V : Vec3) : ∃ s d D D' S' s' left left',
    runFrames (loneWorld (fun _ => V) 0 0 0 0) resumeSettings 0 0 (State.fresh loneStart) 7 = some s ∧
    s.temp = some d ∧ d.positions.length = 5 ∧
    program (loneWorld (fun _ => V) 0 0 0 0) resumeSettings (State.fresh loneStart) = some (some D, left) ∧
    resume resumeSettings loneStart d = some (S', s') ∧
    program (loneWorld (fun _ => V) 0 0 0 0) S' s' = some (some D', left') ∧
    D.positions.length = 11 ∧ D'.positions.length = 10 ∧ D.forces.length = 10 ∧ D'.forces.length = 9 := by
  have hrun := fun j => lone_run (V := fun _ => V) (U := 0) (O := 0) (ctr := 0) (E := 0) resumeSettings_ok
    resumeSettings_save loneStart_isLone j
  have herr : ∀ j s, runFrames (loneWorld (fun _ => V) 0 0 0 0) resumeSettings 0 0 (State.fresh loneStart) j = some s →
      s.error = false := by
    intro j s hs
    obtain ⟨s1, a1, -, a3, -⟩ := hrun j
    obtain rfl := Option.some.inj (hs.symm.trans a1)
    exact a3
  obtain ⟨s10, h10, -, -, h4⟩ := hrun 10
  obtain ⟨-, ⟨p, hp⟩, g, hg⟩ := h4 (by omega)
  have hprog : program (loneWorld (fun _ => V) 0 0 0 0) resumeSettings (State.fresh loneStart)
      = some (some ⟨p, g⟩, none) := by
    unfold program
    refine Option.bind_eq_some_iff.mpr ⟨loneUser V 0 0 0 0, rfl, Option.bind_eq_some_iff.mpr ⟨s10, h10, ?_⟩⟩
    unfold finalSave
    rw [if_pos (by simp [resumeSettings]), hp, hg]
    rfl
  obtain ⟨s, h7, -⟩ := hrun 7
  have hS := resumeSettings_every
  obtain ⟨k, k1, k2, k3, k4⟩ := C36_age hS.start hS.start_saving (by rw [hS.positions]; omega)
    (by rw [hS.forces]; omega) hS.temp hS.on (by omega : 0 < 7) (by simp [resumeSettings, loneSettings]) h7
    (fun j _ s hs => herr j s hs)
  have hk : k = 4 := by
    simp only [resumeSettings] at k2 k3
    obtain ⟨m, rfl⟩ := k2
    omega
  subst hk
  have hlen : (savedUpTo resumeSettings (trajectory (loneWorld (fun _ => V) 0 0 0 0) resumeSettings 0 0
      (State.fresh loneStart)) (4 + 1)).length = 5 := by
    unfold savedUpTo
    rw [if_neg (by simp [resumeSettings, loneSettings]), List.append_nil, List.length_map]
    rw [hS.positions, everyNth_one, List.length_range]
  obtain ⟨D, S', s', D', left', e0, e1, e2, e3, -⟩ := C37_resume_partial (lone_autonomous V) hS (c := loneStart)
    (fun i hi => by
      have := loneStart_isLone.Ns
      obtain rfl : i = 0 := by omega
      rw [loneStart_isLone.size]; norm_num) hprog (fun j _ s hs => herr j s hs)
    (j := 7) (by simp [resumeSettings, loneSettings]) h7 k4
  obtain ⟨e3, e4⟩ := e3 (by rw [hlen]; simp [resumeSettings, loneSettings])
  have hfile := C35_saved hS.start hS.start_saving (by rw [hS.positions]; omega) (by rw [hS.forces]; omega)
    (u := loneUser V 0 0 0 0) rfl hprog (K := resumeSettings.num_frames) (by simp [resumeSettings, loneSettings])
    le_rfl (fun j _ s hs => herr j s hs) (fun h => absurd h (by omega))
  dsimp only at hfile
  rw [e0] at hfile
  have hD := Option.some.inj hfile
  have hDp : D.positions.length = 11 := by
    rw [hD]
    simp only [List.length_append, List.length_map]
    rw [hS.positions, everyNth_one, if_pos ⟨trivial, Nat.one_dvd _⟩]
    simp [resumeSettings, loneSettings]
  have hDf : D.forces.length = 10 := by
    rw [hD]
    simp only [List.length_map]
    rw [hS.forces, everyNth_one]
    simp [resumeSettings, loneSettings]
  refine ⟨s, _, D, D', S', s', none, left', h7, k4, hlen, by rw [hprog, e0], e1, e2, hDp, ?_, hDf, ?_⟩
  · have := congrArg List.length e3
    rw [List.length_map, List.length_dropLast, List.length_map, hDp] at this
    exact this
  · rw [e4, List.length_dropLast, hDf]

end SD
