import Verif.Lemmas.MovedRun

/-!
# The program of a moved simulation
-/

set_option autoImplicit false

namespace SD.Move

open Spec Cov

/-! ## A program that knows more inputs -/

section
variable {W W' : World} {S : Settings} {F : Prop}

/-- `W'` answers whenever `W` does, and then in the same way. -/
structure Extends (W W' : World) : Prop where
  table : W'.table = W.table
  minf : W'.Minfinity_periodic = W.Minfinity_periodic
  near : W'.R2Bexact_periodic = W.R2Bexact_periodic
  input : ∀ c f dt v r u, W.input_ftsuoe c f dt v r = some u → W'.input_ftsuoe c f dt v r = some u

theorem watched_extends (W : World) (G : Config → Prop) : Extends (watched W G) W where
  table := rfl
  minf := rfl
  near := rfl
  input := fun _ _ _ _ _ _ h => (watched_input h).2

theorem bind_mono {α β : Type} {a a' : Option α} {f f' : α → Option β} {y : β} (ha : ∀ x, a = some x → a' = some x)
    (hf : ∀ x, f x = some y → f' x = some y) (h : a.bind f = some y) : a'.bind f' = some y := by
  obtain ⟨x, h1, h2⟩ := Option.bind_eq_some_iff.mp h
  exact Option.bind_eq_some_iff.mpr ⟨x, ha x h1, hf x h2⟩

theorem resistance_mono (hE : Extends W W') {c : Config} {last : NDMat} {reg : Bool} {u : UserInput} :
    stageResistance W' S c last reg u = stageResistance W S c last reg u := by
  unfold stageResistance generate_grand_resistance_matrix_periodic
  rw [hE.table, hE.minf, hE.near]

theorem output_mono (hE : Extends W W') {c : Config} {f : ℝ} {last : NDMat} {reg : Bool} {lv : Vel} (st : Stage)
    (h : generate_output_FTSUOE W S c f last reg lv = some st) :
    generate_output_FTSUOE W' S c f last reg lv = some st := by
  unfold generate_output_FTSUOE at h ⊢
  refine bind_mono (hE.input _ _ _ _ _) (fun u h => ?_) h
  refine bind_mono (fun x hx => by rw [resistance_mono hE]; exact hx) (fun x h => ?_) h
  refine bind_mono (fun u2 h => ?_) (fun _ h => h) h
  by_cases e : S.input_form = .fte
  · rw [if_pos e] at h ⊢
    exact bind_mono (fun _ h => h) (fun _ h => hE.input _ _ _ _ _ _ h) h
  · rw [if_neg e] at h ⊢
    exact h

theorem euler_mono (hE : Extends W W') {bl tr : Vec3} {f : ℕ} {c : Config} {lv : Vel} {last : NDMat} {reg : Bool}
    {r : StepResult} (h : stepEulerAb2 W S bl tr f c lv last reg = some r) :
    stepEulerAb2 W' S bl tr f c lv last reg = some r := by
  unfold stepEulerAb2 at h ⊢
  exact bind_mono (output_mono hE) (fun _ h => h) h

theorem rk4_mono (hE : Extends W W') {bl tr : Vec3} {f : ℕ} {c : Config} {lv : Vel} {last : NDMat} {reg : Bool}
    {r : StepResult} (h : stepRk4 W S bl tr f c lv last reg = some r) :
    stepRk4 W' S bl tr f c lv last reg = some r := by
  rw [rk4_eq] at h ⊢
  refine bind_mono (output_mono hE) (fun _ h => ?_) h
  refine bind_mono (fun _ h => h) (fun _ h => ?_) h
  refine bind_mono (fun _ h => h) (fun _ h => ?_) h
  refine bind_mono (output_mono hE) (fun _ h => ?_) h
  refine bind_mono (fun _ h => h) (fun _ h => ?_) h
  refine bind_mono (fun _ h => h) (fun _ h => ?_) h
  refine bind_mono (output_mono hE) (fun _ h => ?_) h
  refine bind_mono (fun _ h => h) (fun _ h => ?_) h
  refine bind_mono (fun _ h => h) (fun _ h => ?_) h
  exact bind_mono (output_mono hE) (fun _ h => h) h

theorem step_mono (hE : Extends W W') {bl tr : Vec3} {f : ℕ} {c : Config} {lv : Vel} {last : NDMat} {reg : Bool}
    (r : StepResult) (h : timeStep W S bl tr f c lv last reg = some r) :
    timeStep W' S bl tr f c lv last reg = some r := by
  unfold timeStep at h ⊢
  cases hs : S.scheme with
  | euler => rw [hs] at h; exact euler_mono hE h
  | ab2 => rw [hs] at h; exact euler_mono hE h
  | rk4 => rw [hs] at h; exact rk4_mono hE h
  | other => rw [hs] at h; exact absurd h (by simp)

theorem frame_mono (hE : Extends W W') {bl tr : Vec3} {f : ℕ} {s : State} (s1 : State)
    (h : generate_frame W S bl tr f s = some s1) : generate_frame W' S bl tr f s = some s1 := by
  unfold generate_frame at h ⊢
  by_cases he : s.error = true
  · rw [if_pos he] at h ⊢; exact h
  rw [if_neg he] at h ⊢
  by_cases hi : S.invert_m_every = 0
  · rw [if_pos hi] at h; exact absurd h (by simp)
  rw [if_neg hi] at h ⊢
  exact bind_mono (step_mono hE) (fun _ h => h) h

theorem run_mono (hE : Extends W W') {bl tr : Vec3} {s : State} {k : ℕ} :
    ∀ s1, runFrames W S bl tr s k = some s1 → runFrames W' S bl tr s k = some s1 := by
  induction k with
  | zero => exact fun _ h => h
  | succ k ih =>
    intro s1 h
    rw [run_succ] at h ⊢
    exact bind_mono ih (fun _ h => frame_mono hE _ h) h

theorem program_mono (hE : Extends W W') {s : State} {out : Option Saved × Option Saved}
    (h : program W S s = some out) : program W' S s = some out := by
  unfold program at h ⊢
  refine bind_mono (hE.input _ _ _ _ _) (fun u h => ?_) h
  exact bind_mono (run_mono hE) (fun _ h => h) h

end

/-! ## Saving -/

section
variable {K : ℕ → ℕ → NDMat → Prop} {Q : Fin 3 → Fin 3 → ℝ} {t : Vec3} {W W' : World} {S : Settings} {F : Prop}

theorem savePos_moved {f : ℕ} {old new : Config} {l : Option (List Config)} :
    savePositions S f (movedConfig Q t old) (movedConfig Q t new) (l.map (List.map (movedConfig Q t)))
      = (savePositions S f old new l).map (Option.map (List.map (movedConfig Q t))) := by
  unfold savePositions
  by_cases h : S.save_positions_every > 0 ∧ f % S.save_positions_every = 0 ∧ f ≥ S.start_saving
  swap
  · rw [if_neg h, if_neg h]; rfl
  rw [if_pos h, if_pos h]
  have last : ∀ l : Option (List Config),
      (if f = S.num_frames - 1 ∧ 0 < S.num_frames then
        (l.map (List.map (movedConfig Q t))).map fun l => some (l ++ [movedConfig Q t new])
      else some (l.map (List.map (movedConfig Q t))))
      = (if f = S.num_frames - 1 ∧ 0 < S.num_frames then l.map fun l => some (l ++ [new])
        else some l).map (Option.map (List.map (movedConfig Q t))) := by
    intro l
    by_cases h3 : f = S.num_frames - 1 ∧ 0 < S.num_frames
    · rw [if_pos h3, if_pos h3]; cases l <;> simp
    · rw [if_neg h3, if_neg h3]; rfl
  by_cases h1 : f = S.start_saving
  · rw [if_pos h1, if_pos h1]
    exact last (some [old])
  rw [if_neg h1, if_neg h1]
  by_cases h2 : f ≠ S.start
  · rw [if_pos h2, if_pos h2]
    cases l with
    | none => rfl
    | some l =>
      have := last (some (l ++ [old]))
      simpa using this
  · rw [if_neg h2, if_neg h2]
    exact last l

theorem saveF_moved {f : ℕ} {g : Forces} {l : Option (List Forces)} :
    saveForces S f (turnedForces Q g) (l.map (List.map (turnedForces Q)))
      = (saveForces S f g l).map (Option.map (List.map (turnedForces Q))) := by
  unfold saveForces
  by_cases h : S.save_forces_every > 0 ∧ f % S.save_forces_every = 0 ∧ f ≥ S.start_saving
  swap
  · rw [if_neg h, if_neg h]; rfl
  rw [if_pos h, if_pos h]
  by_cases h1 : f = S.start_saving <;> by_cases h2 : f = S.start <;> cases l <;> simp [h1, h2] <;> simp_all

theorem savez_moved {p : Option (List Config)} {g : Option (List Forces)} :
    savez (p.map (List.map (movedConfig Q t))) (g.map (List.map (turnedForces Q)))
      = (savez p g).map (movedSaved Q t) := by
  cases p <;> cases g <;> rfl

theorem saveTemp_moved {f : ℕ} {p : Option (List Config)} {g : Option (List Forces)} {d : Option Saved} :
    saveTemp S f (p.map (List.map (movedConfig Q t))) (g.map (List.map (turnedForces Q))) (d.map (movedSaved Q t))
      = (saveTemp S f p g d).map (Option.map (movedSaved Q t)) := by
  unfold saveTemp
  rw [savez_moved]
  split_ifs <;> simp [Function.comp_def]

theorem final_moved {s s' : State} (h : MovedState Q t s s') :
    finalSave S s' = (finalSave S s).map fun o => (o.1.map (movedSaved Q t), o.2.map (movedSaved Q t)) := by
  unfold finalSave
  rw [h.savedPos, h.savedForces, h.temp, savez_moved]
  split_ifs <;> simp [Function.comp_def]

/-! ## Frames and runs -/

theorem blank_turned : turnedVel Q Vel.blank = Vel.blank := by
  have h0 : turnVec Q (fun _ => 0) = fun _ => 0 := turn_zero Q
  have h1 : turnAxial Q (fun _ => 0) = fun _ => 0 := axial_zero Q
  unfold turnedVel Vel.blank
  simp only [h0, h1]

/-- The states agree and so do the caches. -/
structure Follows (K : ℕ → ℕ → NDMat → Prop) (Q : Fin 3 → Fin 3 → ℝ) (t : Vec3) (s s' : State) : Prop where
  state : MovedState Q t s s'
  cache : CacheOk K s.posdata.P.Ns s.posdata.P.Nd Q s.cache s'.cache

theorem frame_moved (hQ : Orthogonal Q) (hW : MovedWorld F S.input_form Q t W W')
    (hk : 0 < S.cutoff_factor) (hF : FlatOk S Q)
    (hc : ∀ c f dt v r u, W.input_ftsuoe c f dt v r = some u → Kept W S K c)
    {bl tr bl' tr' : Vec3} (hb : bl = tr) (hb' : bl' = tr') {f : ℕ} {s s' s1 : State} (hs : MovedState Q t s s')
    (he : s.error = false) (hl : f ≠ S.start → Follows K Q t s s')
    (h : generate_frame W S bl tr f s = some s1) :
    ∃ s1', generate_frame W' S bl' tr' f s' = some s1' ∧ Follows K Q t s1 s1' := by
  obtain ⟨hn, r, hr, e1, e2, e3, e4, e5, e6, e7⟩ := frame_some he h
  have hv : velIn S f s' = turnedVel Q (velIn S f s) := by
    unfold velIn
    by_cases h : f = 0 ∨ f = S.start
    · rw [if_pos h, if_pos h, blank_turned]
    · rw [if_neg h, if_neg h, hs.lastVel]
  unfold frameStep at hr
  have hl' : S.use_drag_Minfinity = false → regen S f = false →
      CacheOk K s.posdata.P.Ns s.posdata.P.Nd Q (cacheIn S f s) (cacheIn S f s') := by
    intro _ hg
    unfold cacheIn
    rw [hg]
    refine (hl ?_).cache
    rintro rfl
    simp [regen] at hg
  obtain ⟨r', hr', hm⟩ := timeStep_moved (bl' := bl') (tr' := tr') hQ hW hk hF hc hb hb' hl' hr
  have hsz := timeStep_sizes hr
  rw [frame_eq (by rw [hs.error]; exact he) hn]
  unfold frameStep
  rw [hs.posdata, hv, hr', Option.bind_some, hm.new, hs.savedPos, savePos_moved, e5, Option.map_some,
    Option.bind_some, hm.forces, hs.savedForces, saveF_moved, e6, Option.map_some, Option.bind_some, hs.temp,
    saveTemp_moved, e7, Option.map_some, Option.bind_some]
  refine ⟨_, rfl, ⟨?_, ?_, ?_, rfl, rfl, rfl⟩, ?_⟩
  · rw [e1]
  · exact hm.error.trans e2.symm
  · rw [e4]; exact hm.lastVel
  · rw [e1, e3, hsz.1, hsz.2.1]
    exact hm.cache

theorem run_moved (hQ : Orthogonal Q) (hW : MovedWorld F S.input_form Q t W W')
    (hk : 0 < S.cutoff_factor) (hF : FlatOk S Q)
    (hc : ∀ c f dt v r u, W.input_ftsuoe c f dt v r = some u → Kept W S K c)
    {bl tr bl' tr' : Vec3} (hb : bl = tr) (hb' : bl' = tr') {s s' : State} (hs : MovedState Q t s s') {k : ℕ} :
    ∀ s1, runFrames W S bl tr s k = some s1 →
    ∃ s1', runFrames W' S bl' tr' s' k = some s1' ∧ MovedState Q t s1 s1' ∧
      (k = 0 ∨ s1.error = true ∨ Follows K Q t s1 s1') := by
  induction k with
  | zero =>
    intro s1 h
    obtain rfl := Option.some.inj h
    exact ⟨s', rfl, hs, Or.inl rfl⟩
  | succ k ih =>
    intro s2 h
    obtain ⟨s1, h1, h2⟩ := run_prev h
    obtain ⟨s1', g1, m1, f1⟩ := ih s1 h1
    rw [run_succ, g1, Option.bind_some]
    cases he : s1.error with
    | true =>
      rw [frame_error he] at h2
      obtain rfl := Option.some.inj h2
      rw [frame_error (by rw [m1.error]; exact he)]
      exact ⟨s1', rfl, m1, Or.inr (Or.inl he)⟩
    | false =>
      obtain ⟨s2', g2, m2⟩ := frame_moved (bl' := bl') (tr' := tr') hQ hW hk hF hc hb hb' m1 he (by
        intro hf
        rcases f1 with rfl | e | f1
        · exact absurd rfl hf
        · rw [he] at e; exact absurd e (by simp)
        · exact f1) h2
      exact ⟨s2', g2, m2.state, Or.inr (Or.inr m2)⟩

theorem program_moved (hQ : Orthogonal Q) (hW : MovedWorld F S.input_form Q t W W')
    (hk : 0 < S.cutoff_factor) (hF : FlatOk S Q)
    (hc : ∀ c f dt v r u, W.input_ftsuoe c f dt v r = some u → Kept W S K c)
    {s s' : State} (hs : MovedState Q t s s') {out : Option Saved × Option Saved}
    (h : program W S s = some out) :
    program W' S s' = some (out.1.map (movedSaved Q t), out.2.map (movedSaved Q t)) := by
  unfold program at h ⊢
  obtain ⟨u, h1, h⟩ := Option.bind_eq_some_iff.mp h
  obtain ⟨s1, h2, h3⟩ := Option.bind_eq_some_iff.mp h
  obtain ⟨u', g1, hu⟩ := hW.input _ _ _ _ none none _ rfl h1
  obtain ⟨s1', g2, m, -⟩ := run_moved (bl' := u'.bl) (tr' := u'.tr) hQ hW hk hF hc hu.unbounded hu.unbounded' hs _ h2
  rw [hs.posdata]
  rw [blank_turned] at g1
  rw [g1, Option.bind_eq_bind, Option.bind_some, g2, Option.bind_eq_bind, Option.bind_some, final_moved m, h3]
  rfl

end

end SD.Move
