import Verif.Lemmas.Still
import Verif.Props.ShippedInputs

/-!
# C67: without loads nothing moves

Whole runs in a fluid at rest in which all prescribed forces, torques, stresslets, strains and velocities are zero; and
one of the project's own inputs that is unintentionally of this kind.
-/

set_option autoImplicit false

namespace SD

open Spec Move Ship

variable {W : World} {S : Settings}

theorem save_positions_all {f : ℕ} {c : Config} {saved saved' : Option (List Config)}
    (h : savePositions S f c c saved = some saved') (hs : ∀ l, saved = some l → ∀ q ∈ l, q = c) :
    ∀ l, saved' = some l → ∀ q ∈ l, q = c := by
  have app : ∀ {s s' : Option (List Config)}, (s.map fun l => some (l ++ [c])) = some s' →
      (∀ l, s = some l → ∀ q ∈ l, q = c) → ∀ l, s' = some l → ∀ q ∈ l, q = c := by
    intro s s' h hs l hl q hq
    obtain ⟨m, hm, e⟩ := Option.map_eq_some_iff.mp h
    rw [← e] at hl
    obtain rfl := Option.some.inj hl
    rcases List.mem_append.mp hq with h | h
    · exact hs m hm q h
    · simpa using h
  unfold savePositions at h
  by_cases h0 : S.save_positions_every > 0 ∧ f % S.save_positions_every = 0 ∧ f ≥ S.start_saving
  · rw [if_pos h0] at h
    obtain ⟨s1, h1, h⟩ := Option.bind_eq_some_iff.mp h
    have hs1 : ∀ l, s1 = some l → ∀ q ∈ l, q = c := by
      by_cases h2 : f = S.start_saving
      · rw [if_pos h2] at h1
        obtain rfl := Option.some.inj h1
        intro l hl q hq
        obtain rfl := Option.some.inj hl
        simpa using hq
      · rw [if_neg h2] at h1
        by_cases h3 : f ≠ S.start
        · rw [if_pos h3] at h1
          exact app h1 hs
        · rw [if_neg h3] at h1
          obtain rfl := Option.some.inj h1
          exact hs
    by_cases h4 : f = S.num_frames - 1 ∧ 0 < S.num_frames
    · rw [if_pos h4] at h
      exact app h hs1
    · rw [if_neg h4] at h
      obtain rfl := Option.some.inj h
      exact hs1
  · rw [if_neg h0] at h
    obtain rfl := Option.some.inj h
    exact hs

theorem save_forces_all {f : ℕ} {g : Forces} {saved saved' : Option (List Forces)}
    (h : saveForces S f g saved = some saved') (hs : ∀ l, saved = some l → ∀ q ∈ l, q = g) :
    ∀ l, saved' = some l → ∀ q ∈ l, q = g := by
  unfold saveForces at h
  by_cases h0 : S.save_forces_every > 0 ∧ f % S.save_forces_every = 0 ∧ f ≥ S.start_saving
  · rw [if_pos h0] at h
    by_cases h2 : f = S.start_saving
    · rw [if_pos h2] at h
      obtain rfl := Option.some.inj h
      intro l hl q hq
      obtain rfl := Option.some.inj hl
      simpa using hq
    · rw [if_neg h2] at h
      by_cases h3 : f ≠ S.start
      · rw [if_pos h3] at h
        obtain ⟨m, hm, e⟩ := Option.map_eq_some_iff.mp h
        intro l hl q hq
        rw [← e] at hl
        obtain rfl := Option.some.inj hl
        rcases List.mem_append.mp hq with h | h
        · exact hs m hm q h
        · simpa using h
      · rw [if_neg h3] at h
        obtain rfl := Option.some.inj h
        exact hs
  · rw [if_neg h0] at h
    obtain rfl := Option.some.inj h
    exact hs

theorem velIn_blank {f : ℕ} {s : State} (h : s.lastVel = Vel.blank) : velIn S f s = Vel.blank := by
  unfold velIn
  split
  · rfl
  · exact h

theorem cache_sound {f k : ℕ} {s : State} (hst : S.start = 0) (hf : f = k) (hl : 0 < k → Sound s.posdata.P s.cache) :
    S.use_drag_Minfinity = false → regen S f = false → Sound s.posdata.P (cacheIn S f s) := by
  intro _ hg
  unfold cacheIn
  rw [hg]
  rcases Nat.eq_zero_or_pos k with h | h
  · rw [hf, h] at hg
    simp [regen, hst] at hg
  · exact hl h

/-- After any number of frames everything is as at the start. -/
theorem run_still (hD : TableDissipates W.table) {c : Config} (hS : Runnable S c.P.Nd) (ha : Arrows c)
    (hc : Ready W S c) (hi : Idle W S c) {bl tr : Vec3} (hb : bl = tr) (k : ℕ) {s : State}
    (h : runFrames W S bl tr (State.fresh c) k = some s) :
    s.posdata = c ∧ s.lastVel = Vel.blank ∧ (0 < k → s.error = true ∨ Sound c.P s.cache) ∧
      (∀ l, s.savedPos = some l → ∀ q ∈ l, q = c) ∧ ∀ l, s.savedForces = some l → ∀ q ∈ l, q = noForces c := by
  induction k generalizing s with
  | zero =>
    obtain rfl := Option.some.inj h
    exact ⟨rfl, rfl, fun h => absurd h (by omega), fun l h => by simp [State.fresh] at h, fun l h => by simp [State.fresh] at h⟩
  | succ k ih =>
    obtain ⟨s1, h1, h2⟩ := run_prev h
    obtain ⟨i1, i2, i3, i4, i5⟩ := ih h1
    cases he : s1.error with
    | true =>
      rw [frame_error he] at h2
      obtain rfl := Option.some.inj h2
      exact ⟨i1, i2, fun _ => .inl he, i4, i5⟩
    | false =>
      obtain ⟨-, r, hr, e1, e2, e3, e4, e5, e6, -⟩ := frame_some he h2
      unfold frameStep at hr
      rw [velIn_blank i2, i1] at hr
      have hl := cache_sound (S := S) (f := S.start + k) (k := k) (s := s1) hS.start (by rw [hS.start]; omega) (fun hk => by
        rcases i3 hk with h | h
        · rw [he] at h; simp at h
        · rw [i1]; exact h)
      rw [i1] at hl
      obtain ⟨r1, r2, r3, r4⟩ := step_still hD hS hc hi ha hb hl hr
      rw [i1, r1] at e5
      rw [r3] at e6
      exact ⟨e1.trans r1, e4.trans r2, fun _ => .inr (by rw [e3]; exact r4), save_positions_all e5 i4, save_forces_all e6 i5⟩

theorem visits_still (hD : TableDissipates W.table) {c : Config} (hS : Runnable S c.P.Nd) (ha : Arrows c)
    (hc : Ready W S c) (hi : Idle W S c) {bl tr : Vec3} (hb : bl = tr) {k : ℕ} {s : State}
    (h : runFrames W S bl tr (State.fresh c) k = some s) (he : s.error = false) {d : Config}
    (hv : Visits W S bl tr k s d) : d = c := by
  obtain ⟨i1, i2, i3, -⟩ := run_still hD hS ha hc hi hb k h
  have hl := cache_sound (S := S) (f := k) (k := k) (s := s) hS.start rfl (fun hk => by
    rcases i3 hk with h | h
    · rw [he] at h; simp at h
    · rw [i1]; exact h)
  rcases visits_eq.mp hv with rfl | ⟨-, h⟩
  · exact i1
  · rw [velIn_blank i2, i1] at h
    rw [i1] at hl
    exact inner_still hD hS hc hi ha hb hl h

/-- **C67** (still). When nothing acts and the fluid is at rest, the program runs through, for every scheme, form of
input and number of frames; every saved configuration, with its orientation arrows, is the first one, and every saved
force and stresslet is zero. -/
theorem C67_still (hD : TableDissipates W.table) {c : Config} (hS : Runnable S c.P.Nd) (ha : Arrows c)
    (hN : 0 < S.num_frames) (hc : Ready W S c) (hi : Idle W S c) :
    ∃ d, program W S (State.fresh c) = some (some d, none) ∧ (∀ q ∈ d.positions, q = c) ∧
      ∀ g ∈ d.forces, g = noForces c := by
  obtain ⟨u, hu, -, -, -, hb, -⟩ := hc.answers 0 0.1 Vel.blank none
  obtain ⟨d, hd⟩ := C65_program hD hS ha hN hc (by
    intro u' hu' j _ s hs he d hv
    obtain rfl : u = u' := Option.some.inj (hu.symm.trans hu')
    rw [visits_still hD hS ha hc hi hb hs he hv]
    exact hc)
  refine ⟨d, hd, ?_⟩
  obtain ⟨u0, hu0, hp⟩ := Option.bind_eq_some_iff.mp hd
  obtain rfl : u = u0 := Option.some.inj (hu.symm.trans hu0)
  obtain ⟨s, hr, hfin⟩ := Option.bind_eq_some_iff.mp hp
  obtain ⟨-, -, -, i4, i5⟩ := run_still hD hS ha hc hi hb _ hr
  unfold finalSave at hfin
  rw [if_pos (.inl hS.force)] at hfin
  obtain ⟨d', hd', e⟩ := Option.map_eq_some_iff.mp hfin
  obtain rfl : d' = d := by simpa using e
  unfold savez at hd'
  obtain ⟨p, h1, hd'⟩ := Option.bind_eq_some_iff.mp hd'
  obtain ⟨g, h2, hd'⟩ := Option.bind_eq_some_iff.mp hd'
  obtain rfl := Option.some.inj hd'
  exact ⟨i4 p h1, i5 g h2⟩

theorem zero_rows (k : ℕ) : List.replicate k (givenRow 0) = (List.replicate k (0 : Vec3)).map num3 := by
  rw [List.map_replicate]; rfl

theorem zero_mats (k : ℕ) : List.replicate k (givenMat 0) = (List.replicate k (0 : Mat3)).map num33 := by
  rw [List.map_replicate]; rfl

/-- **C67** (ignored velocities). A disagreement with its description: input 5 is to move half of the spheres to the left and
the others to the right, but with the forms `fts` and `fte` these velocities are not read. All spheres stay
where they are, in every frame and for every scheme. -/
theorem C67_velocities_ignored {form : InputForm} (hform : form = .fts ∨ form = .fte) (hD : TableDissipates W.table)
    (hW : Ships 5 form W) (hF : S.input_form = form) {c : Config} (hS : Runnable S c.P.Nd) (ha : Arrows c)
    (hN : 0 < S.num_frames) (hs : 0 < c.P.Ns) (hc : Ready W S c) :
    ∃ d, program W S (State.fresh c) = some (some d, none) ∧ (∀ q ∈ d.positions, q = c) ∧
      ∀ g ∈ d.forces, g = noForces c := by
  refine C67_still hD hS ha hN hc ?_
  intro f dt v r u hu
  rw [hW] at hu
  have hU : u.U = 0 ∧ u.O = 0 := by
    have hu' := hu
    unfold input_ftsuoe at hu'
    dsimp only at hu'
    rw [if_neg (by omega), if_neg (by omega), if_neg (by omega), if_neg (by omega), if_pos rfl] at hu'
    obtain rfl := Option.some.inj hu'
    exact ⟨rfl, rfl⟩
  refine ⟨hU.1, hU.2, c.P.Ns, le_rfl, ?_, fun h => absurd h (by omega)⟩
  have e : u.inp = { defaultInputs form c.P with
        Ua := List.replicate (c.P.Ns / 2) (givenRow ![-1, 0, 0])
          ++ List.replicate (c.P.Ns - c.P.Ns / 2) (givenRow ![1, 0, 0]) } := by
    rcases shipped_cases hu with ⟨h, -⟩ | ⟨h, -⟩ | ⟨h, -⟩ | ⟨-, h⟩ | ⟨h, -⟩ | ⟨h, -⟩
    · omega
    · omega
    · omega
    · exact h
    · omega
    · omega
  rw [e, hF]
  rcases hform with rfl | rfl
  · exact ⟨zero_rows _, zero_rows _, zero_mats _, zero_rows _, zero_rows _⟩
  · exact ⟨zero_rows _, zero_rows _, zero_mats _, zero_rows _, zero_rows _⟩

/-! ## The hypotheses can be met -/

/-- A sphere between two dumbbells with input 5 stays where it is, for any number of Runge-Kutta frames. -/
example (N : ℕ) (hN : 0 < N) : ∃ d, program (shippedWorld 5 .fte) (formSettings .fte N) (State.fresh starStart)
    = some (some d, none) ∧ (∀ q ∈ d.positions, q = starStart) ∧ ∀ g ∈ d.forces, g = noForces starStart := by
  have hst := star_steady 0 0 0 .rk4 N
  refine C67_velocities_ignored (.inr rfl) dampT_dissipates (shippedWorld_ships 5 .fte) rfl (formSettings_ok _ N _)
    starStart_arrows hN (by simp [starStart, starP]) ?_
  exact steady_ready (shipped_steady (shippedWorld_ships 5 .fte) rfl hst.radii hst.ratios ⟨by simp [starStart, starP], by simp⟩
    (.inl rfl) (by simp [starStart, starP]) (by omega) (by omega) (show 1 ≤ 5 ∧ 5 ≤ 7 by omega)) ⟨rfl, rfl, rfl, rfl⟩ star_apart

end SD
