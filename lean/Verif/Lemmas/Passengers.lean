import Verif.Spec.Passengers
import Verif.Lemmas.Frame
import Verif.Lemmas.RenumRun

/-!
# A run without its arrows
-/

set_option autoImplicit false

namespace SD.Pass

open Spec

variable {W : World} {S : Settings} {bl tr : Vec3}

/-- The particles without their arrows. -/
def bare (c : Config) : Config := ⟨c.P, fun _ _ => 0⟩

theorem bare_eq {c c' : Config} : bare c = bare c' ↔ c.P = c'.P := by
  constructor
  · intro h; have := congrArg Config.P h; exact this
  · intro h; unfold bare; rw [h]

theorem output_blind (hW : Blind W) {c c' : Config} (h : c.P = c'.P) :
    generate_output_FTSUOE W S c = generate_output_FTSUOE W S c' := by
  funext f last reg lv
  unfold generate_output_FTSUOE stageResistance
  rw [hW c c' h, h]

theorem vel_blind {c c' : Config} (h : c.P = c'.P) : stageVel c = stageVel c' := by
  funext st Ed
  unfold stageVel
  rw [h]

/-- The parts of two steps that have to agree. -/
structure StepAlike (r r' : StepResult) : Prop where
  new : r.new.P = r'.new.P
  error : r.error = r'.error
  cache : r.cache = r'.cache
  lastVel : r.lastVel = r'.lastVel
  forces : r.forces = r'.forces

theorem posData_ext {P P' : PosData} (h1 : P.Ns = P'.Ns) (h2 : P.Nd = P'.Nd) (h3 : P.sphereSize = P'.sphereSize)
    (h4 : P.spherePos = P'.spherePos) (h5 : P.dumbSize = P'.dumbSize) (h6 : P.dumbPos = P'.dumbPos)
    (h7 : P.dumbDx = P'.dumbDx) : P = P' := by
  cases P; cases P'; simp only at *; subst h1 h2 h3 h4 h5 h6 h7; rfl

theorem euler_alike (hW : Blind W) {c c' : Config} (h : c.P = c'.P) {f : ℕ} {lv : Vel} {cache : NDMat} {reg : Bool}
    {r r' : StepResult} (h1 : stepEulerAb2 W S bl tr f c lv cache reg = some r)
    (h2 : stepEulerAb2 W S bl tr f c' lv cache reg = some r') : StepAlike r r' := by
  obtain ⟨st, v0, v, p⟩ := euler_parts h1
  obtain ⟨st', v0', v', q⟩ := euler_parts h2
  have e1 := p.stage
  rw [output_blind hW h, q.stage] at e1
  obtain rfl := Option.some.inj e1
  have e2 := p.vel
  rw [vel_blind h, q.vel] at e2
  obtain rfl := Option.some.inj e2
  obtain rfl : v = v' := p.flat.trans q.flat.symm
  obtain ⟨a1, a2, a3, a4⟩ := p.sizes
  obtain ⟨b1, b2, b3, b4⟩ := q.sizes
  have hsp : r.new.P.spherePos = r'.new.P.spherePos := by
    rcases Nat.eq_zero_or_pos c.P.Ns with h0 | h0
    · rw [(p.noSpheres h0).1, (q.noSpheres (by rw [← h]; exact h0)).1, h]
    · obtain ⟨new, -, n1, -, n2, -⟩ := p.spheres h0
      obtain ⟨new', -, m1, -, m2, -⟩ := q.spheres (by rw [← h]; exact h0)
      rw [← h, ← n1] at m1
      subst m1
      exact Option.some.inj (n2.symm.trans m2)
  have hdb : r.new.P.dumbPos = r'.new.P.dumbPos ∧ r.new.P.dumbDx = r'.new.P.dumbDx ∧ r.error = r'.error := by
    rcases Nat.eq_zero_or_pos c.P.Nd with h0 | h0
    · obtain ⟨x1, x2, x3⟩ := p.noDumbs h0
      obtain ⟨y1, y2, y3⟩ := q.noDumbs (by rw [← h]; exact h0)
      rw [x1, x2, x3, y1, y2, y3, h]
      exact ⟨rfl, rfl, rfl⟩
    · obtain ⟨-, x2, x3, x4⟩ := p.dumbs h0
      obtain ⟨-, y2, y3, y4⟩ := q.dumbs (by rw [← h]; exact h0)
      rw [← h] at y2 y3 y4
      have e : r.new.P.dumbDx = r'.new.P.dumbDx := x2.trans y2.symm
      exact ⟨Option.some.inj (x4.symm.trans y4), e, by rw [x3, y3, e]⟩
  exact ⟨posData_ext (by rw [a1, b1, h]) (by rw [a2, b2, h]) (by rw [a3, b3, h]) hsp (by rw [a4, b4, h]) hdb.1 hdb.2.1,
    hdb.2.2, by rw [p.cache_eq, q.cache_eq], by rw [p.vel_eq, q.vel_eq], by rw [p.forces_eq, q.forces_eq]⟩

theorem move_alike {c c' d d' : Config} (h : c.P = c'.P) {st : Stage} {v : Vel} {dt : ℝ} {e a b : Bool}
    (h1 : rk4Move S bl tr c st v dt e = some (d, a)) (h2 : rk4Move S bl tr c' st v dt e = some (d', b)) :
    d.P = d'.P ∧ a = b := by
  have p := move_parts h1
  have q := move_parts h2
  obtain ⟨a1, a2, a3, a4⟩ := p.sizes
  obtain ⟨b1, b2, b3, b4⟩ := q.sizes
  have hsp : d.P.spherePos = d'.P.spherePos := by
    rcases Nat.eq_zero_or_pos c.P.Ns with h0 | h0
    · rw [(p.noSpheres h0).1, (q.noSpheres (by rw [← h]; exact h0)).1, h]
    · have m := (q.spheres (by rw [← h]; exact h0)).1
      rw [← h] at m
      exact Option.some.inj ((p.spheres h0).1.symm.trans m)
  have hdb : d.P.dumbPos = d'.P.dumbPos ∧ d.P.dumbDx = d'.P.dumbDx ∧ a = b := by
    rcases Nat.eq_zero_or_pos c.P.Nd with h0 | h0
    · obtain ⟨x1, x2, x3⟩ := p.noDumbs h0
      obtain ⟨y1, y2, y3⟩ := q.noDumbs (by rw [← h]; exact h0)
      rw [x1, x2, x3, y1, y2, y3, h]
      exact ⟨rfl, rfl, rfl⟩
    · obtain ⟨x2, x3, x4⟩ := p.dumbs h0
      obtain ⟨y2, y3, y4⟩ := q.dumbs (by rw [← h]; exact h0)
      rw [← h] at y2 y3 y4
      have e : d.P.dumbDx = d'.P.dumbDx := x2.trans y2.symm
      exact ⟨Option.some.inj (x4.symm.trans y4), e, by rw [x3, y3, e]⟩
  exact ⟨posData_ext (by rw [a1, b1, h]) (by rw [a2, b2, h]) (by rw [a3, b3, h]) hsp (by rw [a4, b4, h]) hdb.1 hdb.2.1,
    hdb.2.2⟩

theorem rk4_alike (hW : Blind W) {c c' : Config} (h : c.P = c'.P) {f : ℕ} {lv : Vel} {cache : NDMat} {reg : Bool}
    {r r' : StepResult} (h1 : stepRk4 W S bl tr f c lv cache reg = some r)
    (h2 : stepRk4 W S bl tr f c' lv cache reg = some r') : StepAlike r r' := by
  obtain ⟨st, v, c1, c2, c3, e1, e2, e3, p⟩ := rk4_parts h1
  obtain ⟨st', v', c1', c2', c3', e1', e2', e3', q⟩ := rk4_parts h2
  have s0 : st' 0 = st 0 := by
    have e := p.stage1
    rw [output_blind hW h, q.stage1] at e
    exact Option.some.inj e
  have w0 : v' 0 = v 0 := by
    have e := p.vel1
    rw [vel_blind h, ← s0, q.vel1] at e
    exact Option.some.inj e
  obtain ⟨d1, rfl⟩ := move_alike h p.move1 (by rw [← s0, ← w0]; exact q.move1)
  have s1 : st' 1 = st 1 := by
    have e := p.stage2
    rw [output_blind hW d1, ← s0, q.stage2] at e
    exact Option.some.inj e
  have w1 : v' 1 = v 1 := by
    have e := p.vel2
    rw [vel_blind h, ← s0, ← s1, q.vel2] at e
    exact Option.some.inj e
  obtain ⟨d2, rfl⟩ := move_alike h p.move2 (by rw [← s1, ← w1]; exact q.move2)
  have s2 : st' 2 = st 2 := by
    have e := p.stage3
    rw [output_blind hW d2, ← s0, q.stage3] at e
    exact Option.some.inj e
  have w2 : v' 2 = v 2 := by
    have e := p.vel3
    rw [vel_blind h, ← s2, q.vel3] at e
    exact Option.some.inj e
  obtain ⟨d3, rfl⟩ := move_alike h p.move3 (by rw [← s2, ← w2]; exact q.move3)
  have s3 : st' 3 = st 3 := by
    have e := p.stage4
    rw [output_blind hW d3, ← s0, q.stage4] at e
    exact Option.some.inj e
  have w3 : v' 3 = v 3 := by
    have e := p.vel4
    rw [vel_blind h, ← s3, q.vel4] at e
    exact Option.some.inj e
  have hl : r.lastVel = r'.lastVel := by rw [p.vel_eq, q.vel_eq, w0, w1, w2, w3]
  obtain ⟨a1, a2, a3, a4⟩ := p.sizes
  obtain ⟨b1, b2, b3, b4⟩ := q.sizes
  have hsp : r.new.P.spherePos = r'.new.P.spherePos := by
    rcases Nat.eq_zero_or_pos c.P.Ns with h0 | h0
    · rw [(p.noSpheres h0).1, (q.noSpheres (by rw [← h]; exact h0)).1, h]
    · have m := (q.spheres (by rw [← h]; exact h0)).1
      rw [← h, ← hl, s0] at m
      exact Option.some.inj ((p.spheres h0).1.symm.trans m)
  have hdb : r.new.P.dumbPos = r'.new.P.dumbPos ∧ r.new.P.dumbDx = r'.new.P.dumbDx ∧ r.error = r'.error := by
    rcases Nat.eq_zero_or_pos c.P.Nd with h0 | h0
    · obtain ⟨x1, x2, x3⟩ := p.noDumbs h0
      obtain ⟨y1, y2, y3⟩ := q.noDumbs (by rw [← h]; exact h0)
      rw [x1, x2, x3, y1, y2, y3, h]
      exact ⟨rfl, rfl, rfl⟩
    · obtain ⟨x2, x3, x4⟩ := p.dumbs h0
      obtain ⟨y2, y3, y4⟩ := q.dumbs (by rw [← h]; exact h0)
      rw [← h, ← hl] at y2
      rw [← h, ← hl, s0] at y4
      rw [← h] at y3
      have e : r.new.P.dumbDx = r'.new.P.dumbDx := x2.trans y2.symm
      exact ⟨Option.some.inj (x4.symm.trans y4), e, by rw [x3, y3, e]⟩
  exact ⟨posData_ext (by rw [a1, b1, h]) (by rw [a2, b2, h]) (by rw [a3, b3, h]) hsp (by rw [a4, b4, h]) hdb.1 hdb.2.1,
    hdb.2.2, by rw [p.cache_eq, q.cache_eq, s0], hl, by rw [p.forces_eq, q.forces_eq, s0, s1, s2, s3]⟩

theorem timeStep_alike (hW : Blind W) {c c' : Config} (h : c.P = c'.P) {f : ℕ} {lv : Vel} {cache : NDMat} {reg : Bool}
    {r r' : StepResult} (h1 : timeStep W S bl tr f c lv cache reg = some r)
    (h2 : timeStep W S bl tr f c' lv cache reg = some r') : StepAlike r r' := by
  unfold timeStep at h1 h2
  cases hs : S.scheme with
  | euler => rw [hs] at h1 h2; exact euler_alike hW h h1 h2
  | ab2 => rw [hs] at h1 h2; exact euler_alike hW h h1 h2
  | rk4 => rw [hs] at h1 h2; exact rk4_alike hW h h1 h2
  | other => rw [hs] at h1; exact absurd h1 (by simp)

/-- The same state up to the arrows. -/
structure StateAlike (s s' : State) : Prop where
  posdata : s.posdata.P = s'.posdata.P
  error : s.error = s'.error
  cache : s.cache = s'.cache
  lastVel : s.lastVel = s'.lastVel
  savedPos : s.savedPos.map (List.map bare) = s'.savedPos.map (List.map bare)
  savedForces : s.savedForces = s'.savedForces
  temp : ∀ d, s.temp = some d → ∃ d', s'.temp = some d' ∧ d.positions.map bare = d'.positions.map bare ∧
    d.forces = d'.forces

theorem savez_alike {p p' : Option (List Config)} {f : Option (List Forces)} {d d' : Saved}
    (hp : p.map (List.map bare) = p'.map (List.map bare)) (h : savez p f = some d) (h' : savez p' f = some d') :
    d.positions.map bare = d'.positions.map bare ∧ d.forces = d'.forces := by
  cases p with
  | none => simp [savez] at h
  | some p =>
    cases p' with
    | none => simp [savez] at h'
    | some p' =>
      cases f with
      | none => simp [savez] at h
      | some f =>
        obtain rfl := Option.some.inj h
        obtain rfl := Option.some.inj h'
        exact ⟨Option.some.inj hp, rfl⟩

theorem temp_alike {f : ℕ} {p p' : Option (List Config)} {g : Option (List Forces)} {t t' u u' : Option Saved}
    (hp : p.map (List.map bare) = p'.map (List.map bare))
    (ht : ∀ d, t = some d → ∃ d', t' = some d' ∧ d.positions.map bare = d'.positions.map bare ∧ d.forces = d'.forces)
    (h : saveTemp S f p g t = some u) (h' : saveTemp S f p' g t' = some u') :
    ∀ d, u = some d → ∃ d', u' = some d' ∧ d.positions.map bare = d'.positions.map bare ∧ d.forces = d'.forces := by
  unfold saveTemp at h h'
  split_ifs at h h' with h1 h2 h3
  · intro d hd
    obtain ⟨x, hx, rfl⟩ := Option.map_eq_some_iff.mp h
    obtain ⟨y, hy, rfl⟩ := Option.map_eq_some_iff.mp h'
    obtain rfl := Option.some.inj hd
    exact ⟨y, rfl, savez_alike hp hx hy⟩
  · obtain rfl := Option.some.inj h
    obtain rfl := Option.some.inj h'
    exact ht
  · obtain rfl := Option.some.inj h
    obtain rfl := Option.some.inj h'
    exact ht

theorem frame_alike (hW : Blind W) {s s' s1 s1' : State} (hs : StateAlike s s') {f : ℕ}
    (h : generate_frame W S bl tr f s = some s1) (h' : generate_frame W S bl tr f s' = some s1') : StateAlike s1 s1' := by
  cases he : s.error with
  | true =>
    rw [frame_error he] at h
    rw [frame_error (by rw [← hs.error]; exact he)] at h'
    obtain rfl := Option.some.inj h
    obtain rfl := Option.some.inj h'
    exact hs
  | false =>
    obtain ⟨-, r, a0, a1, a2, a3, a4, a5, a6, a7⟩ := frame_some he h
    obtain ⟨-, r', b0, b1, b2, b3, b4, b5, b6, b7⟩ := frame_some (by rw [← hs.error]; exact he) h'
    have hv : velIn S f s' = velIn S f s := by unfold velIn; rw [hs.lastVel]
    have hk : cacheIn S f s' = cacheIn S f s := by unfold cacheIn; rw [hs.cache]
    unfold frameStep at a0 b0
    rw [hv, hk] at b0
    have m := timeStep_alike hW hs.posdata a0 b0
    have hp : s1.savedPos.map (List.map bare) = s1'.savedPos.map (List.map bare) := by
      have x := Reorder.savePos_map (S := S) bare (f := f) (old := s.posdata) (new := r.new) (l := s.savedPos)
      have y := Reorder.savePos_map (S := S) bare (f := f) (old := s'.posdata) (new := r'.new) (l := s'.savedPos)
      rw [a5] at x
      rw [b5, ← bare_eq.mpr hs.posdata, ← bare_eq.mpr m.new, ← hs.savedPos, x] at y
      exact Option.some.inj y
    have hf : s1.savedForces = s1'.savedForces := by
      rw [← m.forces, ← hs.savedForces, a6] at b6
      exact Option.some.inj b6
    refine ⟨by rw [a1, b1]; exact m.new, by rw [a2, b2]; exact m.error, by rw [a3, b3]; exact m.cache,
      by rw [a4, b4]; exact m.lastVel, hp, hf, ?_⟩
    rw [← hf] at b7
    exact temp_alike hp hs.temp a7 b7

theorem run_alike (hW : Blind W) {s s' : State} (hs : StateAlike s s') :
    ∀ (k : ℕ) (s1 s1' : State), runFrames W S bl tr s k = some s1 → runFrames W S bl tr s' k = some s1' →
      StateAlike s1 s1' := by
  intro k
  induction k with
  | zero =>
    intro s1 s1' h h'
    obtain rfl := Option.some.inj h
    obtain rfl := Option.some.inj h'
    exact hs
  | succ k ih =>
    intro s1 s1' h h'
    obtain ⟨t, h1, h2⟩ := Option.bind_eq_some_iff.mp h
    obtain ⟨t', h1', h2'⟩ := Option.bind_eq_some_iff.mp h'
    exact frame_alike hW (ih t t' h1 h1') h2 h2'

theorem positions_bare {l l' : List Config} (h : l.map bare = l'.map bare) : l.map Config.P = l'.map Config.P := by
  have := congrArg (List.map Config.P) h
  simpa [List.map_map, Function.comp_def, bare] using this

theorem fresh_alike {c c' : Config} (h : c.P = c'.P) : StateAlike (State.fresh c) (State.fresh c') :=
  ⟨h, rfl, rfl, rfl, rfl, rfl, fun d hd => by simp [State.fresh] at hd⟩

end SD.Pass
