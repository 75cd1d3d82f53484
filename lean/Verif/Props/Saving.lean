import Verif.Props.Step

/-!
# C35, C36: the saved file and the backup file
-/

set_option autoImplicit false

namespace SD

open Spec

variable {W : World} {S : Settings} {bl tr : Vec3}

/-- The configuration after `j` frames of the run from `s0`, that is at the start of frame `S.start + j`. -/
noncomputable def trajectory (W : World) (S : Settings) (bl tr : Vec3) (s0 : State) (j : ℕ) : Config :=
  ((runFrames W S bl tr s0 j).getD s0).posdata

/-- The forces found in frame `S.start + j` of the run from `s0`. -/
noncomputable def forceRecord (W : World) (S : Settings) (bl tr : Vec3) (s0 : State) (j : ℕ) : Forces :=
  ((frameStep W S bl tr (S.start + j) ((runFrames W S bl tr s0 j).getD s0)).map StepResult.forces).getD
    ⟨[], [], [], []⟩

theorem trajectory_eq {s0 s : State} {j : ℕ} (h : runFrames W S bl tr s0 j = some s) :
    trajectory W S bl tr s0 j = s.posdata := by
  unfold trajectory
  rw [h]; rfl

theorem forceRecord_eq {s0 s : State} {j : ℕ} {r : StepResult} (h : runFrames W S bl tr s0 j = some s)
    (hr : frameStep W S bl tr (S.start + j) s = some r) : forceRecord W S bl tr s0 j = r.forces := by
  unfold forceRecord
  rw [h, Option.getD_some, hr]; rfl

theorem everyNth_zero {n : ℕ} (hn : 0 < n) : everyNth n 0 = [] := by
  unfold everyNth
  rw [show (0 + n - 1) / n = 0 from Nat.div_eq_of_lt (by omega)]
  rfl

theorem everyNth_succ {n : ℕ} (hn : 0 < n) (k : ℕ) :
    everyNth n (k + 1) = everyNth n k ++ if k % n = 0 then [k] else [] := by
  unfold everyNth
  have e1 : (k + 1 + n - 1) / n = k / n + 1 := by
    rw [show k + 1 + n - 1 = k + n by omega, Nat.add_div_right _ hn]
  have hk := Nat.div_add_mod k n
  rw [e1]
  by_cases h : k % n = 0
  · have e2 : (k + n - 1) / n = k / n := by
      rw [show k + n - 1 = (n - 1) + n * (k / n) by omega, Nat.add_mul_div_left _ _ hn,
        Nat.div_eq_of_lt (by omega)]
      omega
    rw [e2, if_pos h, List.range_succ, List.map_append]
    simp only [List.map_cons, List.map_nil]
    congr 2
    omega
  · have hlt := Nat.mod_lt k hn
    have e2 : (k + n - 1) / n = k / n + 1 := by
      rw [show k + n - 1 = (k % n - 1) + n * (k / n + 1) by rw [Nat.mul_add]; omega,
        Nat.add_mul_div_left _ _ hn, Nat.div_eq_of_lt (by omega)]
      omega
    rw [e2, if_neg h, List.append_nil]

/-- The positions saved in the first `k` frames of a fresh run. -/
noncomputable def savedUpTo (S : Settings) (X : ℕ → Config) (k : ℕ) : List Config :=
  (everyNth S.save_positions_every k).map X ++
    if k = S.num_frames ∧ S.save_positions_every ∣ k - 1 then [X k] else []

/-- The saved lists after `k` frames of a fresh run. -/
theorem saved_lists (h0 : S.start = 0) (h1 : S.start_saving = 0) (hn : 0 < S.save_positions_every)
    (hm : 0 < S.save_forces_every) {s0 s : State} {k : ℕ}
    (h : runFrames W S bl tr s0 k = some s) (hk : k ≤ S.num_frames)
    (herr : ∀ j < k, ∀ s', runFrames W S bl tr s0 j = some s' → s'.error = false) (hpos : 0 < k) :
    s.savedPos = some (savedUpTo S (trajectory W S bl tr s0) k) ∧
    s.savedForces = some ((everyNth S.save_forces_every k).map (forceRecord W S bl tr s0)) := by
  induction k generalizing s with
  | zero => omega
  | succ k ih =>
    obtain ⟨s1, g1, g2⟩ := run_prev h
    have he1 := herr k (by omega) s1 g1
    obtain ⟨-, r, a1, a2, -, -, -, a3, a4, -⟩ := frame_some he1 g2
    have hX : trajectory W S bl tr s0 k = s1.posdata := trajectory_eq g1
    have hX1 : trajectory W S bl tr s0 (k + 1) = r.new := (trajectory_eq h).trans a2
    have hF : forceRecord W S bl tr s0 k = r.forces := forceRecord_eq g1 a1
    rw [h0, Nat.zero_add] at a3 a4
    have hlast : ∀ L : List Config, (if k = S.num_frames - 1 ∧ 0 < S.num_frames then some (some (L ++ [r.new]))
        else some (some L)) = some (some (L ++ if k + 1 = S.num_frames then [r.new] else [])) := by
      intro L
      by_cases e : k + 1 = S.num_frames
      · rw [if_pos ⟨by omega, by omega⟩, if_pos e]
      · rw [if_neg (by omega), if_neg e, List.append_nil]
    constructor
    · unfold savePositions at a3
      rw [h0, h1] at a3
      unfold savedUpTo
      rw [everyNth_succ hn, List.map_append, Nat.add_sub_cancel]
      by_cases hd : k % S.save_positions_every = 0
      · rw [if_pos ⟨hn, hd, Nat.zero_le _⟩] at a3
        rw [if_pos hd]
        have hdv := Nat.dvd_of_mod_eq_zero hd
        simp only [List.map_cons, List.map_nil, hX, hX1, hdv, and_true]
        by_cases hz : k = 0
        · rw [if_pos hz] at a3
          have a3 := (hlast [s1.posdata]).symm.trans a3
          subst hz
          rw [everyNth_zero hn, List.map_nil, List.nil_append]
          exact (Option.some.inj a3).symm
        · rw [if_neg hz, if_pos hz, (ih g1 (by omega) (fun j hj => herr j (by omega)) (by omega)).1] at a3
          have a3 := (hlast (savedUpTo S (trajectory W S bl tr s0) k ++ [s1.posdata])).symm.trans a3
          rw [← Option.some.inj a3]
          unfold savedUpTo
          rw [if_neg (by omega), List.append_nil]
      · rw [if_neg (by omega)] at a3
        rw [if_neg hd, List.map_nil, List.append_nil, if_neg (by
          rintro ⟨-, hc⟩
          exact hd (Nat.mod_eq_zero_of_dvd hc)), List.append_nil, ← Option.some.inj a3]
        have hz : 0 < k := by
          rcases Nat.eq_zero_or_pos k with rfl | h
          · exact absurd (Nat.zero_mod _) hd
          · exact h
        rw [(ih g1 (by omega) (fun j hj => herr j (by omega)) hz).1]
        unfold savedUpTo
        rw [if_neg (by omega), List.append_nil]
    · unfold saveForces at a4
      rw [h0, h1] at a4
      rw [everyNth_succ hm, List.map_append]
      by_cases hd : k % S.save_forces_every = 0
      · rw [if_pos ⟨hm, hd, Nat.zero_le _⟩] at a4
        rw [if_pos hd]
        simp only [List.map_cons, List.map_nil, hF]
        by_cases hz : k = 0
        · rw [if_pos hz] at a4
          subst hz
          rw [everyNth_zero hm, List.map_nil, List.nil_append]
          exact (Option.some.inj a4).symm
        · rw [if_neg hz, if_pos hz, (ih g1 (by omega) (fun j hj => herr j (by omega)) (by omega)).2] at a4
          exact (Option.some.inj a4).symm
      · rw [if_neg (by omega)] at a4
        rw [if_neg hd, List.map_nil, List.append_nil, ← Option.some.inj a4]
        have hz : 0 < k := by
          rcases Nat.eq_zero_or_pos k with rfl | h
          · exact absurd (Nat.zero_mod _) hd
          · exact h
        exact (ih g1 (by omega) (fun j hj => herr j (by omega)) hz).2

/-! ## C35 -/

/-- **C35.** The final file of a fresh run of `N` frames that saves every `n`-th configuration and every `m`-th
force record from frame 0 on. Here `K` is the number of frames before the explosion protection stopped the run;
without an explosion `K = N`. The file contains the configurations at the start of the frames `0, n, 2n, ...`
below `K`, in order, then the final configuration if the last of the `N` frames was reached and is a saved frame,
and the force records of the frames `0, m, 2m, ...` below `K`. -/
theorem C35_saved (h0 : S.start = 0) (h1 : S.start_saving = 0) (hn : 0 < S.save_positions_every)
    (hm : 0 < S.save_forces_every) {c : Config} {u : UserInput} {file left : Option Saved}
    (hu : W.input_ftsuoe c 0 0.1 Vel.blank none = some u)
    (hprog : program W S (State.fresh c) = some (file, left)) {K : ℕ} (hK0 : 0 < K) (hK : K ≤ S.num_frames)
    (herr : ∀ j < K, ∀ s, runFrames W S u.bl u.tr (State.fresh c) j = some s → s.error = false)
    (hstop : K < S.num_frames → ∀ s, runFrames W S u.bl u.tr (State.fresh c) K = some s → s.error = true) :
    let X := trajectory W S u.bl u.tr (State.fresh c)
    let Φ := forceRecord W S u.bl u.tr (State.fresh c)
    file = some
      { positions := (everyNth S.save_positions_every K).map X ++
          if K = S.num_frames ∧ S.save_positions_every ∣ K - 1 then [X K] else []
        forces := (everyNth S.save_forces_every K).map Φ } := by
  intro X Φ
  unfold program at hprog
  obtain ⟨u0, hu0, hprog⟩ := Option.bind_eq_some_iff.mp hprog
  obtain rfl : u = u0 := Option.some.inj (hu.symm.trans hu0)
  obtain ⟨s, hs, hfin⟩ := Option.bind_eq_some_iff.mp hprog
  rw [h0, Nat.sub_zero] at hs
  obtain ⟨sK, hsK, -⟩ := run_earlier hK hs
  have hsame : sK = s := by
    rcases Nat.lt_or_ge K S.num_frames with hlt | hge
    · have := run_error (j := S.num_frames - K) hsK (hstop hlt sK hsK)
      rw [show K + (S.num_frames - K) = S.num_frames by omega, hs] at this
      exact (Option.some.inj this).symm
    · obtain rfl : K = S.num_frames := by omega
      rw [hs] at hsK
      exact (Option.some.inj hsK).symm
  subst hsame
  obtain ⟨a, b⟩ := saved_lists h0 h1 hn hm hsK hK herr hK0
  unfold finalSave at hfin
  rw [if_pos (.inl hm), a, b] at hfin
  have := Option.some.inj hfin
  simp only [Prod.mk.injEq] at this
  exact this.1.symm

/-- **C35** (Euler forces). In an Euler or Adams-Bashforth frame the force record holds the forces and
stresslets of the solution at the start of the frame. -/
theorem C35_forces_euler (hsch : S.scheme = .euler ∨ S.scheme = .ab2) {s0 s s' : State} {j : ℕ}
    (h : runFrames W S bl tr s0 j = some s) (he : s.error = false)
    (hf : generate_frame W S bl tr (S.start + j) s = some s') :
    ∃ st, generate_output_FTSUOE W S s.posdata (S.start + j : ℕ) s'.cache false
        (if S.start + j = 0 ∨ S.start + j = S.start then Vel.blank else s.lastVel) = some st ∧
      forceRecord W S bl tr s0 j = ⟨st.out.Fa, st.out.Fb, st.out.DFb, st.out.Sa⟩ := by
  obtain ⟨-, r, a1, -, -, a2, -⟩ := frame_some he hf
  rw [forceRecord_eq h a1]
  rcases timeStep_cases a1 with ⟨-, hh⟩ | ⟨hs, -⟩
  · obtain ⟨st, v0, v, hp⟩ := euler_parts hh
    refine ⟨st, ?_, hp.forces_eq⟩
    rw [a2, hp.cache_eq]
    exact output_pin hp.stage
  · rcases hsch with h | h <;> rw [hs] at h <;> cases h

/-- **C35** (number of entries). A run that reaches its end saves the start of one in `n` frames: the number of
saved force records is the number of frames divided by the interval, rounded up. -/
theorem C35_count {n : ℕ} (hn : 0 < n) (N : ℕ) :
    (everyNth n N).length = (N + n - 1) / n ∧ ∀ f, f ∈ everyNth n N ↔ f < N ∧ n ∣ f := by
  refine ⟨by simp [everyNth], fun f => ?_⟩
  induction N with
  | zero => rw [everyNth_zero hn]; simp
  | succ N ih =>
    rw [everyNth_succ hn, List.mem_append, ih]
    by_cases h : N % n = 0
    · rw [if_pos h]
      have := Nat.dvd_of_mod_eq_zero h
      simp only [List.mem_singleton]
      constructor
      · rintro (⟨a, b⟩ | rfl)
        · exact ⟨by omega, b⟩
        · exact ⟨by omega, this⟩
      · rintro ⟨a, b⟩
        by_cases e : f = N
        · exact .inr e
        · exact .inl ⟨by omega, b⟩
    · rw [if_neg h]
      simp only [List.not_mem_nil, or_false]
      constructor
      · rintro ⟨a, b⟩; exact ⟨by omega, b⟩
      · rintro ⟨a, b⟩
        refine ⟨?_, b⟩
        by_contra hc
        obtain rfl : f = N := by omega
        exact h (Nat.mod_eq_zero_of_dvd b)

example : everyNth 2 7 = [0, 2, 4, 6] ∧ everyNth 3 7 = [0, 3, 6] := by decide

theorem lone_program {sch : Scheme} (h : sch ≠ .other) (N : ℕ) (hN : 0 < N) (V : ℝ → Vec3) :
    ∃ file left, program (loneWorld V 0 0 0 0) (loneSettings sch N) (State.fresh loneStart) = some (file, left) ∧
    ∀ j s, runFrames (loneWorld V 0 0 0 0) (loneSettings sch N) 0 0 (State.fresh loneStart) j = some s →
      s.error = false := by
  obtain ⟨s, h1, h2, h3, h4⟩ := lone_run (V := V) (U := 0) (O := 0) (ctr := 0) (E := 0) (loneSettings_ok h N)
    (loneSettings_save sch N) loneStart_isLone N
  obtain ⟨-, ⟨p, hp⟩, g, hg⟩ := h4 hN
  refine ⟨some ⟨p, g⟩, none, ?_, fun j s hs => ?_⟩
  · unfold program
    refine Option.bind_eq_some_iff.mpr ⟨loneUser (V 0) 0 0 0 0, rfl, Option.bind_eq_some_iff.mpr ⟨s, h1, ?_⟩⟩
    unfold finalSave
    rw [if_pos (by simp [loneSettings]), hp, hg]
    rfl
  · obtain ⟨s1, a1, -, a3, -⟩ := lone_run (V := V) (U := 0) (O := 0) (ctr := 0) (E := 0) (loneSettings_ok h N)
      (loneSettings_save sch N) loneStart_isLone j
    obtain rfl := Option.some.inj (hs.symm.trans a1)
    exact a3

/-- Seven frames of a lone sphere, saved every second frame: five configurations and four force records. -/
example (V : ℝ → Vec3) : ∃ file,
    let W := loneWorld V 0 0 0 0
    let S := loneSettings .rk4 7
    let X := trajectory W S 0 0 (State.fresh loneStart)
    let Φ := forceRecord W S 0 0 (State.fresh loneStart)
    program W S (State.fresh loneStart) = some (some file, none) ∧
    file.positions = [X 0, X 2, X 4, X 6, X 7] ∧ file.forces = [Φ 0, Φ 2, Φ 4, Φ 6] := by
  obtain ⟨file, left, h, he⟩ := lone_program (sch := .rk4) (by decide) 7 (by omega) V
  have := C35_saved (S := loneSettings .rk4 7) rfl rfl (by simp [loneSettings]) (by simp [loneSettings])
    (u := loneUser (V 0) 0 0 0 0) rfl h (K := 7) (by omega) le_rfl (fun j _ s hs => he j s hs)
    (fun hlt => absurd hlt (by simp [loneSettings]))
  have hl : left = none := by
    unfold program at h
    obtain ⟨_, -, h⟩ := Option.bind_eq_some_iff.mp h
    obtain ⟨_, -, h⟩ := Option.bind_eq_some_iff.mp h
    unfold finalSave at h
    rw [if_pos (by simp [loneSettings])] at h
    obtain ⟨d, -, h⟩ := Option.map_eq_some_iff.mp h
    simp only [Prod.mk.injEq] at h
    exact h.2.symm
  subst this hl
  refine ⟨_, h, ?_, ?_⟩
  · simp only [loneSettings, show everyNth 2 7 = [0, 2, 4, 6] by decide]
    rfl
  · simp only [loneSettings, show everyNth 2 7 = [0, 2, 4, 6] by decide]
    rfl

/-- **C35** (saving positions only). A fresh run that is told to save positions but no forces does not end
with a file: the program fails when it comes to write it. -/
theorem C35_positions_only (hm : S.save_forces_every = 0) (hn : 0 < S.save_positions_every) {c : Config} :
    program W S (State.fresh c) = none := by
  rcases hp : program W S (State.fresh c) with _ | out
  · rfl
  exfalso
  unfold program at hp
  obtain ⟨u, -, hp⟩ := Option.bind_eq_some_iff.mp hp
  obtain ⟨s, hs, hfin⟩ := Option.bind_eq_some_iff.mp hp
  have key : ∀ k s, runFrames W S u.bl u.tr (State.fresh c) k = some s → s.savedForces = none := by
    intro k
    induction k with
    | zero => intro s h; obtain rfl := Option.some.inj h; rfl
    | succ k ih =>
      intro s h
      obtain ⟨s1, g1, g2⟩ := run_prev h
      by_cases he : s1.error = true
      · rw [frame_error he] at g2
        obtain rfl := Option.some.inj g2
        exact ih _ g1
      · obtain ⟨-, r, a1, a2, -, -, -, a3, a4, -⟩ := frame_some (by simpa using he) g2
        unfold saveForces at a4
        rw [hm, if_neg (by simp), ih _ g1] at a4
        exact (Option.some.inj a4).symm
  unfold finalSave savez at hfin
  rw [if_pos (.inr hn), key _ _ hs] at hfin
  rcases s.savedPos with _ | p <;> simp at hfin

example : ∃ S : Settings, S.save_forces_every = 0 ∧ 0 < S.save_positions_every :=
  ⟨{ loneSettings .euler 5 with save_forces_every := 0 }, rfl, by simp [loneSettings]⟩

/-! ## C36 -/

/-- What the backup file and the saved lists have in common along a fresh run. -/
theorem temp_inv (h0 : S.start = 0) {c : Config} {k : ℕ} {s : State}
    (h : runFrames W S bl tr (State.fresh c) k = some s) {d : Saved} (hd : s.temp = some d) :
    S.start_saving < k ∧ ∃ p g, s.savedPos = some p ∧ s.savedForces = some g ∧ d.positions <+: p ∧ d.forces <+: g := by
  induction k generalizing s d with
  | zero => obtain rfl := Option.some.inj h; cases hd
  | succ k ih =>
    obtain ⟨s1, g1, g2⟩ := run_prev h
    by_cases he : s1.error = true
    · rw [frame_error he] at g2
      obtain rfl := Option.some.inj g2
      obtain ⟨a, b⟩ := ih g1 hd
      exact ⟨by omega, b⟩
    obtain ⟨-, r, -, -, -, -, -, a3, a4, a5⟩ := frame_some (by simpa using he) g2
    rw [h0, Nat.zero_add] at a3 a4 a5
    unfold saveTemp at a5
    have old : s.temp = s1.temp → S.start_saving < k + 1 ∧ ∃ p g, s.savedPos = some p ∧ s.savedForces = some g ∧
        d.positions <+: p ∧ d.forces <+: g := by
      intro e
      obtain ⟨b1, p, g, b2, b3, b4, b5⟩ := ih g1 (e ▸ hd)
      refine ⟨by omega, ?_⟩
      have ep : ∃ p', s.savedPos = some p' ∧ p <+: p' := by
        unfold savePositions at a3
        rw [b2, h0] at a3
        by_cases hc : S.save_positions_every > 0 ∧ k % S.save_positions_every = 0 ∧ k ≥ S.start_saving
        · rw [if_pos hc, if_neg (by omega), if_pos (by omega)] at a3
          by_cases hl : k = S.num_frames - 1 ∧ 0 < S.num_frames
          · simp only [if_pos hl] at a3
            have a3 := Option.some.inj a3
            exact ⟨_, a3.symm, (List.prefix_append _ _).trans (List.prefix_append _ _)⟩
          · simp only [if_neg hl] at a3
            have a3 := Option.some.inj a3
            exact ⟨_, a3.symm, List.prefix_append _ _⟩
        · rw [if_neg hc] at a3
          exact ⟨p, (Option.some.inj a3).symm, List.prefix_rfl⟩
      have eg : ∃ g', s.savedForces = some g' ∧ g <+: g' := by
        unfold saveForces at a4
        rw [b3, h0] at a4
        by_cases hc : S.save_forces_every > 0 ∧ k % S.save_forces_every = 0 ∧ k ≥ S.start_saving
        · rw [if_pos hc, if_neg (by omega), if_pos (by omega)] at a4
          have a4 := Option.some.inj a4
          exact ⟨_, a4.symm, List.prefix_append _ _⟩
        · rw [if_neg hc] at a4
          exact ⟨g, (Option.some.inj a4).symm, List.prefix_rfl⟩
      obtain ⟨p', e1, e2⟩ := ep
      obtain ⟨g', e3, e4⟩ := eg
      exact ⟨p', g', e1, e3, b4.trans e2, b5.trans e4⟩
    by_cases c1 : S.save_positions_every > 0
    · rw [if_pos c1] at a5
      by_cases c2 : S.save_to_temp_every = 0
      · rw [if_pos c2] at a5; cases a5
      rw [if_neg c2] at a5
      by_cases c3 : k % S.save_to_temp_every = 0 ∧ S.save_forces_every > 0 ∧ S.save_to_temp = true
        ∧ k ≥ S.start_saving
      · rw [if_pos c3] at a5
        obtain ⟨d', e1, e2⟩ := Option.map_eq_some_iff.mp a5
        have : d' = d := Option.some.inj (e2.trans hd)
        subst this
        unfold savez at e1
        obtain ⟨p, f1, e1⟩ := Option.bind_eq_some_iff.mp e1
        obtain ⟨g, f2, e1⟩ := Option.bind_eq_some_iff.mp e1
        obtain rfl := Option.some.inj e1
        exact ⟨by omega, p, g, f1, f2, List.prefix_rfl, List.prefix_rfl⟩
      · rw [if_neg c3] at a5
        exact old (Option.some.inj a5).symm
    · rw [if_neg c1] at a5
      exact old (Option.some.inj a5).symm

/-- The saved lists only grow once the backup has been written. -/
theorem lists_grow (h0 : S.start = 0) {c : Config} {j k : ℕ} {s s' : State} (hjk : j ≤ k) (hj : S.start_saving < j)
    (h : runFrames W S bl tr (State.fresh c) j = some s) (h' : runFrames W S bl tr (State.fresh c) k = some s')
    {p : List Config} {g : List Forces} (hp : s.savedPos = some p) (hg : s.savedForces = some g) :
    ∃ p' g', s'.savedPos = some p' ∧ s'.savedForces = some g' ∧ p <+: p' ∧ g <+: g' := by
  induction k generalizing s' with
  | zero =>
    obtain rfl : j = 0 := by omega
    omega
  | succ k ih =>
    by_cases e : j = k + 1
    · subst e
      obtain rfl := Option.some.inj (h.symm.trans h')
      exact ⟨p, g, hp, hg, List.prefix_rfl, List.prefix_rfl⟩
    obtain ⟨s1, g1, g2⟩ := run_prev h'
    obtain ⟨p1, f1, b2, b3, b4, b5⟩ := ih (by omega) g1
    by_cases he : s1.error = true
    · rw [frame_error he] at g2
      obtain rfl := Option.some.inj g2
      exact ⟨p1, f1, b2, b3, b4, b5⟩
    obtain ⟨-, r, -, -, -, -, -, a3, a4, -⟩ := frame_some (by simpa using he) g2
    rw [h0, Nat.zero_add] at a3 a4
    have ep : ∃ p', s'.savedPos = some p' ∧ p1 <+: p' := by
      unfold savePositions at a3
      rw [b2, h0] at a3
      by_cases hc : S.save_positions_every > 0 ∧ k % S.save_positions_every = 0 ∧ k ≥ S.start_saving
      · rw [if_pos hc, if_neg (by omega), if_pos (by omega)] at a3
        by_cases hl : k = S.num_frames - 1 ∧ 0 < S.num_frames
        · simp only [if_pos hl] at a3
          have a3 := Option.some.inj a3
          exact ⟨_, a3.symm, (List.prefix_append _ _).trans (List.prefix_append _ _)⟩
        · simp only [if_neg hl] at a3
          have a3 := Option.some.inj a3
          exact ⟨_, a3.symm, List.prefix_append _ _⟩
      · rw [if_neg hc] at a3
        exact ⟨p1, (Option.some.inj a3).symm, List.prefix_rfl⟩
    have eg : ∃ g', s'.savedForces = some g' ∧ f1 <+: g' := by
      unfold saveForces at a4
      rw [b3, h0] at a4
      by_cases hc : S.save_forces_every > 0 ∧ k % S.save_forces_every = 0 ∧ k ≥ S.start_saving
      · rw [if_pos hc, if_neg (by omega), if_pos (by omega)] at a4
        have a4 := Option.some.inj a4
        exact ⟨_, a4.symm, List.prefix_append _ _⟩
      · rw [if_neg hc] at a4
        exact ⟨f1, (Option.some.inj a4).symm, List.prefix_rfl⟩
    obtain ⟨p', e1, e2⟩ := ep
    obtain ⟨g', e3, e4⟩ := eg
    exact ⟨p', g', e1, e3, b4.trans e2, b5.trans e4⟩

/-- **C36** (prefix). Whenever a fresh run is stopped, be it after any number `j` of frames, the backup file on disk
is a prefix of the final file of the run continued to the end. The backup is removed only in the step that writes
the final file. -/
theorem C36_prefix (h0 : S.start = 0) {c : Config} {u : UserInput} {file left : Option Saved}
    (hu : W.input_ftsuoe c 0 0.1 Vel.blank none = some u)
    (hprog : program W S (State.fresh c) = some (file, left)) {j : ℕ} (hj : j ≤ S.num_frames) {s : State}
    (hs : runFrames W S u.bl u.tr (State.fresh c) j = some s) {d : Saved} (hd : s.temp = some d) :
    ∃ D, file = some D ∧ d.positions <+: D.positions ∧ d.forces <+: D.forces := by
  unfold program at hprog
  obtain ⟨u0, hu0, hprog⟩ := Option.bind_eq_some_iff.mp hprog
  obtain rfl : u = u0 := Option.some.inj (hu.symm.trans hu0)
  obtain ⟨s', hs', hfin⟩ := Option.bind_eq_some_iff.mp hprog
  rw [h0, Nat.sub_zero] at hs'
  obtain ⟨a1, p, g, a2, a3, a4, a5⟩ := temp_inv h0 hs hd
  obtain ⟨p', g', b1, b2, b3, b4⟩ := lists_grow h0 hj a1 hs hs' a2 a3
  have hsave : 0 < S.save_positions_every ∨ S.save_forces_every > 0 := by
    by_contra hcon
    have key : ∀ k s, runFrames W S u.bl u.tr (State.fresh c) k = some s → s.temp = none := by
      intro k
      induction k with
      | zero => intro s h; obtain rfl := Option.some.inj h; rfl
      | succ k ih =>
        intro s h
        obtain ⟨s1, g1, g2⟩ := run_prev h
        by_cases he : s1.error = true
        · rw [frame_error he] at g2
          obtain rfl := Option.some.inj g2
          exact ih _ g1
        · obtain ⟨-, r, -, -, -, -, -, -, -, e5⟩ := frame_some (by simpa using he) g2
          unfold saveTemp at e5
          rw [if_neg (by omega), ih _ g1] at e5
          exact (Option.some.inj e5).symm
    rw [key _ _ hs] at hd
    cases hd
  unfold finalSave savez at hfin
  rw [if_pos (by tauto), b1, b2] at hfin
  have := Option.some.inj hfin
  simp only [Prod.mk.injEq] at this
  exact ⟨_, this.1.symm, a4.trans b3, a5.trans b4⟩

/-- **C36** (removal). If the backup file existed at the end of the frames and is gone at the end of the program,
the final file has been written. -/
theorem C36_removed {s : State} {file left : Option Saved} (h : finalSave S s = some (file, left))
    (ht : s.temp ≠ none) (hl : left = none) : ∃ D p g, file = some D ∧ s.savedPos = some p ∧ s.savedForces = some g ∧
      D = ⟨p, g⟩ := by
  unfold finalSave at h
  by_cases hc : S.save_forces_every > 0 ∨ S.save_positions_every > 0
  · rw [if_pos hc] at h
    obtain ⟨D, h1, h2⟩ := Option.map_eq_some_iff.mp h
    unfold savez at h1
    obtain ⟨p, f1, h1⟩ := Option.bind_eq_some_iff.mp h1
    obtain ⟨g, f2, h1⟩ := Option.bind_eq_some_iff.mp h1
    simp only [Prod.mk.injEq] at h2
    exact ⟨D, p, g, h2.1.symm, f1, f2, (Option.some.inj h1).symm⟩
  · rw [if_neg hc] at h
    have := Option.some.inj h
    simp only [Prod.mk.injEq] at this
    exact absurd (this.2.trans hl) ht

/-- **C36** (age). With backups switched on every `T` frames in a fresh run that saves from frame 0, the backup file
after any number `k > 0` of frames exists and is what had been saved at the end of a frame at most
`T` frames back, the latest frame divisible by `T`. -/
theorem C36_age (h0 : S.start = 0) (h1 : S.start_saving = 0) (hn : 0 < S.save_positions_every)
    (hm : 0 < S.save_forces_every) (hT : 0 < S.save_to_temp_every) (hon : S.save_to_temp = true) {c : Config}
    {k : ℕ} (hk0 : 0 < k) (hk : k ≤ S.num_frames) {s : State}
    (h : runFrames W S bl tr (State.fresh c) k = some s)
    (herr : ∀ j < k, ∀ s', runFrames W S bl tr (State.fresh c) j = some s' → s'.error = false) :
    ∃ g < k, S.save_to_temp_every ∣ g ∧ k ≤ g + S.save_to_temp_every ∧
      s.temp = some
        { positions := savedUpTo S (trajectory W S bl tr (State.fresh c)) (g + 1)
          forces := (everyNth S.save_forces_every (g + 1)).map (forceRecord W S bl tr (State.fresh c)) } := by
  induction k generalizing s with
  | zero => omega
  | succ k ih =>
    obtain ⟨s1, g1, g2⟩ := run_prev h
    have he1 := herr k (by omega) s1 g1
    obtain ⟨-, r, -, -, -, -, -, -, -, a5⟩ := frame_some he1 g2
    rw [h0, Nat.zero_add] at a5
    unfold saveTemp at a5
    rw [if_pos hn, if_neg (by omega)] at a5
    obtain ⟨b1, b2⟩ := saved_lists h0 h1 hn hm h hk herr (by omega)
    by_cases hd : k % S.save_to_temp_every = 0
    · rw [if_pos ⟨hd, hm, hon, by omega⟩, b1, b2] at a5
      exact ⟨k, by omega, Nat.dvd_of_mod_eq_zero hd, by omega, (Option.some.inj a5).symm⟩
    · rw [if_neg (by tauto)] at a5
      have hz : 0 < k := by
        rcases Nat.eq_zero_or_pos k with rfl | h
        · exact absurd (Nat.zero_mod _) hd
        · exact h
      obtain ⟨g, e1, e2, e3, e4⟩ := ih hz (by omega) g1 (fun j hj => herr j (by omega))
      refine ⟨g, by omega, e2, ?_, (Option.some.inj a5).symm.trans e4⟩
      by_contra hc
      obtain rfl : k = g + S.save_to_temp_every := by omega
      exact hd (Nat.mod_eq_zero_of_dvd (Dvd.dvd.add e2 (dvd_refl _)))

/-- A lone sphere, backups every fifth frame, after eight of nine frames: the backup is that of frame 5. -/
example (V : ℝ → Vec3) : ∃ s, runFrames (loneWorld V 0 0 0 0) (loneSettings .rk4 9) 0 0 (State.fresh loneStart) 8
      = some s ∧ ∃ d, s.temp = some d ∧ d.positions = [0, 2, 4].map
        (trajectory (loneWorld V 0 0 0 0) (loneSettings .rk4 9) 0 0 (State.fresh loneStart)) := by
  obtain ⟨file, left, h, he⟩ := lone_program (sch := .rk4) (by decide) 9 (by omega) V
  obtain ⟨s, h1, -⟩ := lone_run (V := V) (U := 0) (O := 0) (ctr := 0) (E := 0)
    (loneSettings_ok (sch := .rk4) (by decide) 9) (loneSettings_save .rk4 9) loneStart_isLone 8
  obtain ⟨g, a, b, b', d⟩ := C36_age (S := loneSettings .rk4 9) rfl rfl (by simp [loneSettings])
    (by simp [loneSettings]) (by simp [loneSettings]) rfl (by omega : 0 < 8) (by simp [loneSettings]) h1
    (fun j _ s hs => he j s hs)
  refine ⟨s, h1, _, d, ?_⟩
  have hg : g = 5 := by
    simp only [loneSettings] at b b'
    obtain ⟨m, rfl⟩ := b
    omega
  subst hg
  unfold savedUpTo
  rw [if_neg (by simp [loneSettings]), List.append_nil]
  exact congrArg (List.map _) (show everyNth 2 (5 + 1) = [0, 2, 4] by decide)

/-- The same backup is a prefix of the final file. -/
example (V : ℝ → Vec3) : ∃ s d D left,
    runFrames (loneWorld V 0 0 0 0) (loneSettings .rk4 9) 0 0 (State.fresh loneStart) 8 = some s ∧
    s.temp = some d ∧
    program (loneWorld V 0 0 0 0) (loneSettings .rk4 9) (State.fresh loneStart) = some (some D, left) ∧
    d.positions <+: D.positions := by
  obtain ⟨file, left, h, he⟩ := lone_program (sch := .rk4) (by decide) 9 (by omega) V
  obtain ⟨s, h1, -⟩ := lone_run (V := V) (U := 0) (O := 0) (ctr := 0) (E := 0)
    (loneSettings_ok (sch := .rk4) (by decide) 9) (loneSettings_save .rk4 9) loneStart_isLone 8
  obtain ⟨g, a, b, b', d⟩ := C36_age (S := loneSettings .rk4 9) rfl rfl (by simp [loneSettings])
    (by simp [loneSettings]) (by simp [loneSettings]) rfl (by omega : 0 < 8) (by simp [loneSettings]) h1
    (fun j _ s hs => he j s hs)
  obtain ⟨D, rfl, e1, e2⟩ := C36_prefix (S := loneSettings .rk4 9) rfl (u := loneUser (V 0) 0 0 0 0) rfl h
    (by simp [loneSettings]) h1 d
  exact ⟨s, _, D, left, h1, d, h, e1⟩

end SD
