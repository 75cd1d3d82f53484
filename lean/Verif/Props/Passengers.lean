import Verif.Lemmas.Passengers
import Verif.Props.SymmetricRun
import Verif.Props.FallingPair

/-!
# C94: the arrows are passengers, and symmetries that exchange particles are kept
-/

set_option autoImplicit false

namespace SD

open Spec Pass Move Ship

variable {W : World} {S : Settings} {Q : Fin 3 → Fin 3 → ℝ} {t : Vec3} {σ τ : ℕ → ℕ} {F : Prop}

/-- **C94** (arrows). The same particles are started with two choices of orientation arrows, and the input function does
not look at the arrows. Whenever both runs get to frame `k`, the particles, the velocities and the forces saved so far are
the same, in every scheme and with or without a periodic box. -/
theorem C94_arrows (hW : Blind W) {c c' : Config} (h : c.P = c'.P) {bl tr : Vec3} {k : ℕ} {s s' : State}
    (hs : runFrames W S bl tr (State.fresh c) k = some s) (hs' : runFrames W S bl tr (State.fresh c') k = some s') :
    s.posdata.P = s'.posdata.P ∧ s.error = s'.error ∧ s.lastVel = s'.lastVel ∧ s.savedForces = s'.savedForces := by
  have := run_alike hW (fresh_alike h) k s s' hs hs'
  exact ⟨this.posdata, this.error, this.lastVel, this.savedForces⟩

/-- **C94** (files). The two files hold the same particles and forces. -/
theorem C94_files (hW : Blind W) {c c' : Config} (h : c.P = c'.P) {d d' : Saved} {o o' : Option Saved}
    (hd : program W S (State.fresh c) = some (some d, o)) (hd' : program W S (State.fresh c') = some (some d', o')) :
    Alike d d' := by
  unfold program at hd hd'
  obtain ⟨u, h1, hd⟩ := Option.bind_eq_some_iff.mp hd
  obtain ⟨s, h2, h3⟩ := Option.bind_eq_some_iff.mp hd
  obtain ⟨u', h1', hd'⟩ := Option.bind_eq_some_iff.mp hd'
  obtain ⟨s', h2', h3'⟩ := Option.bind_eq_some_iff.mp hd'
  have e : W.input_ftsuoe (State.fresh c').posdata = W.input_ftsuoe (State.fresh c).posdata := hW _ _ h.symm
  rw [e, h1] at h1'
  obtain rfl := Option.some.inj h1'
  have m := run_alike hW (fresh_alike h) _ s s' h2 h2'
  unfold finalSave at h3 h3'
  split_ifs at h3 h3' with hp
  · obtain ⟨x, hx, e1⟩ := Option.map_eq_some_iff.mp h3
    obtain ⟨y, hy, e2⟩ := Option.map_eq_some_iff.mp h3'
    obtain rfl := Option.some.inj (Prod.mk.inj e1).1
    obtain rfl := Option.some.inj (Prod.mk.inj e2).1
    rw [← m.savedForces] at hy
    obtain ⟨a, b⟩ := savez_alike m.savedPos hx hy
    exact ⟨positions_bare a, b⟩
  · simp at h3

theorem map_agree {α β : Type} {g h : α → β} {l : List α} (e : l.map g = l.map h) {x : α} (hx : x ∈ l) : g x = h x := by
  obtain ⟨i, hi, rfl⟩ := List.getElem_of_mem hx
  have := congrArg (fun m => m[i]?) e
  simpa [hi] using this

theorem exchanged_saved {d : Saved} (h : Alike (movedSaved Q t d) (reorderSaved σ τ d)) :
    (∀ e ∈ d.positions, Exchanged Q t σ τ e.P) ∧ ∀ f ∈ d.forces, turnedForces Q f = reorderForces σ τ f := by
  obtain ⟨h1, h2⟩ := h
  simp only [movedSaved, reorderSaved, List.map_map] at h1 h2
  exact ⟨fun e he => map_agree h1 he, fun f hf => map_agree h2 hf⟩

/-- **C94** (exchanges). The motion `x ↦ Q x + t` puts every particle of the start where another particle was, and the
inputs have the same symmetry. With a table that dissipates and satisfies the reciprocal theorem, as long as no two beads
come closer than 2.001 average radii, the program runs through, and in every saved frame the motion puts every particle
where the same other particle was, and turns its force into that of the other. -/
theorem C94_exchanged {c : Config} (hQ : Orthogonal Q) (hσ : Reorders c.P.Ns σ) (hτ : Reorders c.P.Nd τ)
    (hsym : Exchanged Q t σ τ c.P) (hB : Blind W) (hM : MovedWorld F S.input_form Q t W W)
    (hO : ReorderedWorld S.input_form c.P.Ns c.P.Nd σ τ W W) (hD : TableDissipates W.table) (hR : TableBalanced W.table c.P)
    (hF : FlatOk S Q) (hS : Runnable S c.P.Nd) (ha : Arrows c) (hN : 0 < S.num_frames) (hc : Steady W S c)
    (h0 : ¬ Touching c.P)
    (hT : ∀ d, SameSizes c d → ∀ f dt v r u, W.input_ftsuoe d f dt v r = some u → Traceless u.inp)
    (hno : ∀ u, W.input_ftsuoe c 0 0.1 Vel.blank none = some u →
      ∀ j < S.num_frames, ∀ s, runFrames W S u.bl u.tr (State.fresh c) j = some s → s.error = false →
      ∀ d, Visits W S u.bl u.tr j s d → ¬ Touching d.P) :
    ∃ d, program W S (State.fresh c) = some (some d, none) ∧ (∀ e ∈ d.positions, Exchanged Q t σ τ e.P) ∧
      ∀ f ∈ d.forces, turnedForces Q f = reorderForces σ τ f := by
  obtain ⟨d, h1, h2⟩ := C64_untouched hQ hM hD hF hS ha hN hc h0 hT hno
  obtain ⟨d', h1', h3⟩ := C90_untouched hσ hτ hO hD hR hS ha hN hc h0 hT hno
  rw [h1] at h1'
  obtain rfl := Option.some.inj (Prod.mk.inj (Option.some.inj h1')).1
  exact ⟨d, h1, exchanged_saved (C94_files hB (c := movedConfig Q t c) (c' := reorderConfig σ τ c) hsym h2 h3)⟩

/-- **C94** (exchanges, shipped table). The same with the table of the project, for beads of one size. -/
theorem C94_shipped {c : Config} (hQ : Orthogonal Q) (hσ : Reorders c.P.Ns σ) (hτ : Reorders c.P.Nd τ)
    (hsym : Exchanged Q t σ τ c.P) (hB : Blind W) (hM : MovedWorld F S.input_form Q t W W)
    (hO : ReorderedWorld S.input_form c.P.Ns c.P.Nd σ τ W W) (hTab : W.table = shippedTable)
    (hdrag : S.use_drag_Minfinity = false) (hF : FlatOk S Q) {a mu : ℝ} (ha : 0 < a) (hE : EqualBeads c.P a)
    (hmu : ∀ d f dt v r u, W.input_ftsuoe d f dt v r = some u → u.mu = mu) (hS : Runnable S c.P.Nd) (har : Arrows c)
    (hN : 0 < S.num_frames) (hc : Steady W S c) (h0 : ¬ Touching c.P)
    (hT : ∀ d, SameSizes c d → ∀ f dt v r u, W.input_ftsuoe d f dt v r = some u → Traceless u.inp)
    (hno : ∀ u, W.input_ftsuoe c 0 0.1 Vel.blank none = some u →
      ∀ j < S.num_frames, ∀ s, runFrames W S u.bl u.tr (State.fresh c) j = some s → s.error = false →
      ∀ d, Visits W S u.bl u.tr j s d → ¬ Touching d.P) :
    ∃ d, program W S (State.fresh c) = some (some d, none) ∧ (∀ e ∈ d.positions, Exchanged Q t σ τ e.P) ∧
      ∀ f ∈ d.forces, turnedForces Q f = reorderForces σ τ f := by
  obtain ⟨d, h1, h2⟩ := C64_shipped hQ hM hTab hdrag hF ha hE hmu hS har hN hc h0 hT hno
  obtain ⟨d', h1', h3⟩ := C90_shipped hσ hτ hO hTab hdrag ha hE hmu hS har hN hc h0 hT hno
  rw [h1] at h1'
  obtain rfl := Option.some.inj (Prod.mk.inj (Option.some.inj h1')).1
  exact ⟨d, h1, exchanged_saved (C94_files hB (c := movedConfig Q t c) (c' := reorderConfig σ τ c) hsym h2 h3)⟩

/-- The listed inputs do not look at the arrows. -/
theorem ships_blind {n : ℕ} {form : InputForm} (hW : Ships n form W) : Blind W := by
  intro c c' h
  funext f dt v r
  rw [hW, hW, h]

/-- **C94** (listed inputs). Beads of one size falling under gravity (input 1), in the oscillating shear with springs
(input 3) or in the constant shear (input 7), with the table of the project: a symmetry of the start that is one of the
flow is kept, as long as no beads touch. -/
theorem C94_listed {m : ℕ} (hm : m = 1 ∨ m = 3 ∨ m = 7) {form : InputForm} (hW : Ships m form W) (hform : S.input_form = form)
    (hf : form = .fts ∨ form = .fte) (hTab : W.table = shippedTable) (hdrag : S.use_drag_Minfinity = false)
    (hQ : Orthogonal Q) (hk : Keeps m form Q t) (hF : FlatOk S Q) {c : Config} {a : ℝ} (ha : 1 / 10 ^ 8 < a)
    (hE : EqualBeads c.P a) (hN : 0 < c.P.Ns) (hb : S.bead_bead_interactions = true ∨ c.P.Nd = 0)
    (hσ : Reorders c.P.Ns σ) (hτ : Reorders c.P.Nd τ) (h1 : 0 < c.P.Nd → σ 0 = 0 ∨ form = .fte)
    (hsym : Exchanged Q t σ τ c.P) (hS : Runnable S c.P.Nd) (har : Arrows c) (hn : 0 < S.num_frames)
    (h0 : ¬ Touching c.P)
    (hno : ∀ u, W.input_ftsuoe c 0 0.1 Vel.blank none = some u →
      ∀ j < S.num_frames, ∀ s, runFrames W S u.bl u.tr (State.fresh c) j = some s → s.error = false →
      ∀ d, Visits W S u.bl u.tr j s d → ¬ Touching d.P) :
    ∃ d, program W S (State.fresh c) = some (some d, none) ∧ (∀ e ∈ d.positions, Exchanged Q t σ τ e.P) ∧
      ∀ f ∈ d.forces, turnedForces Q f = reorderForces σ τ f := by
  have a0 : 0 < a := lt_trans (by norm_num) ha
  have hfa : formAllowed form c.P.Ns := ⟨fun h => absurd h (by omega), by rcases hf with rfl | rfl <;> simp⟩
  have hst : Steady W S c := by
    refine shipped_steady hW hform (fun x hx => by rw [hE x hx]; exact ha) (fun x hx y hy => ?_) hfa hb (by omega)
      (by omega) (by omega) ?_
    · rw [hE x hx, hE y hy, div_self a0.ne', hTab]
      exact ⟨1, by simp [shippedTable], by norm_num⟩
    · rcases hf with rfl | rfl
      · exact ⟨by omega, by omega, by omega⟩
      · exact ⟨by omega, by omega⟩
  have hf3 : form = .fts ∨ form = .fte ∨ form = .ufte := by rcases hf with h | h <;> simp [h]
  exact C94_shipped hQ hσ hτ hsym (ships_blind hW) (by rw [hform]; exact C68_inputs hQ hk hf3 hW)
    (by rw [hform]; exact listed_reordered hm hW hσ hτ hf h1) hTab hdrag hF a0 hE (mu := 1)
    (fun d f dt v r u hu => by rw [hW] at hu; exact (shipped_box hu).1) hS har hn hst h0
    (fun d _ f dt v r u hu => by rw [hW] at hu; exact shipped_traceless hu) hno

/-- The reflection in the origin keeps the constant shear. -/
theorem negQ_keeps {form : InputForm} : Keeps 7 form negQ 0 := by
  refine ⟨fun x => ?_, rfl⟩
  rw [turnVec_point, turnVec_point]
  funext i
  fin_cases i <;> simp [shearField]

/-- **C94** (sheared pair). Two equal spheres on opposite sides of the origin in the constant shear (input 7), with any
scheme and the table of the project: as long as they do not touch, they are on opposite sides of the origin, at the same
distance from it, in every saved frame. -/
theorem C94_pair {form : InputForm} (hW : Ships 7 form W) (hform : S.input_form = form)
    (hf : form = .fts ∨ form = .fte) (hTab : W.table = shippedTable) (hdrag : S.use_drag_Minfinity = false)
    (h2d : S.fully_2d_problem = false) {c : Config} (h2 : Twins c.P) (hsz : ∀ i, c.P.sphereSize i = c.P.sphereSize 0)
    (ha : 1 / 10 ^ 8 < c.P.sphereSize 0)
    (hsp : ∀ i, c.P.spherePos (swap01 i) = fun k => -c.P.spherePos i k) (hdp : ∀ i, c.P.dumbPos i = 0)
    (hdx : ∀ i, c.P.dumbDx i = 0) (hS : Runnable S c.P.Nd) (har : Arrows c) (hn : 0 < S.num_frames) (h0 : ¬ Touching c.P)
    (hno : ∀ u, W.input_ftsuoe c 0 0.1 Vel.blank none = some u →
      ∀ j < S.num_frames, ∀ s, runFrames W S u.bl u.tr (State.fresh c) j = some s → s.error = false →
      ∀ d, Visits W S u.bl u.tr j s d → ¬ Touching d.P) :
    ∃ d, program W S (State.fresh c) = some (some d, none) ∧
      ∀ e ∈ d.positions, e.P.spherePos 1 = fun k => -e.P.spherePos 0 k := by
  have hsym : Exchanged negQ 0 swap01 (fun i => i) c.P := by
    unfold Exchanged
    have e : ∀ v : Vec3, (fun i => turnVec negQ v i + (0 : Vec3) i) = fun k => -v k := by
      intro v; rw [turnVec_point]; funext k; simp
    obtain ⟨⟨Ns, Nd, ss, sp, ds, dp, dx⟩, r⟩ := c
    simp only at hsz hsp hdp hdx
    simp only [shift, turned, relabel, PosData.mk.injEq, true_and]
    refine ⟨funext fun i => ?_, funext fun i => ?_, funext fun i => ?_, funext fun i => ?_⟩
    · rw [hsz i, hsz (swap01 i)]
    · rw [hsp i]; exact e _
    · rw [hdp i, turnVec_point]; funext k; simp
    · rw [hdx i, turnVec_point]; funext k; simp
  obtain ⟨d, h1, h2', -⟩ := C94_listed (.inr (.inr rfl)) hW hform hf hTab hdrag negQ_orth negQ_keeps
    (fun h => absurd h (by rw [h2d]; simp)) ha (twins_equal h2) (by rw [h2.Ns]; norm_num) (.inr h2.Nd)
    (swap01_reorders (by rw [h2.Ns])) (id_reorders _) (fun h => absurd h (by rw [h2.Nd]; simp)) hsym hS har hn h0 hno
  refine ⟨d, h1, fun e he => ?_⟩
  have := congrArg (fun P : PosData => P.spherePos 0) (h2' e he)
  simp only [shift, turned, relabel, turnVec_point] at this
  have e1 : swap01 0 = 1 := by simp [swap01]
  rw [e1] at this
  rw [← this]
  funext k
  simp

/-! ## The hypotheses can be met -/

/-- Two spheres on opposite sides of the origin. -/
noncomputable def oppositeP : PosData where
  Ns := 2
  Nd := 0
  sphereSize := fun _ => 1
  spherePos := fun i => if i = 0 then ![2, 1, 1] else if i = 1 then ![-2, -1, -1] else 0
  dumbSize := fun _ => 1
  dumbPos := fun _ => 0
  dumbDx := fun _ => 0

noncomputable def oppositeStart : Config := ⟨oppositeP, defaultRots oppositeP.spherePos oppositeP.sphereSize⟩

theorem opposite_arrows : Arrows oppositeStart := by
  intro i _ j h
  by_cases hj : j = 0
  · have := congrFun h 0
    simp [oppositeStart, defaultRots, hj, oppositeP] at this
  · have := congrFun h 2
    simp [oppositeStart, defaultRots, hj, oppositeP] at this

theorem opposite_twins : Twins oppositeP := ⟨rfl, rfl, rfl⟩

theorem opposite_place (i : ℕ) : oppositeP.spherePos (swap01 i) = fun k => -oppositeP.spherePos i k := by
  match i with
  | 0 => funext k; fin_cases k <;> simp [oppositeP, swap01]
  | 1 => funext k; fin_cases k <;> simp [oppositeP, swap01]
  | i + 2 => funext k; fin_cases k <;> simp [oppositeP, swap01]

theorem opposite_apart : ¬ Touching oppositeStart.P := by
  rintro ⟨x, hx, y, hy, hxy, hl⟩
  have hx' : x < 2 := hx
  have hy' : y < 2 := hy
  have rx : radius oppositeStart.P x = 1 := twins_equal opposite_twins x hx
  have ry : radius oppositeStart.P y = 1 := twins_equal opposite_twins y hy
  rw [rx, ry] at hl
  have : (4 : ℝ) ≤ len fun k => centre oppositeP x k - centre oppositeP y k := by
    unfold len
    apply Real.le_sqrt_of_sq_le
    rw [Fin.sum_univ_three]
    interval_cases x <;> interval_cases y <;> first
      | exact absurd rfl hxy
      | (simp [centre, oppositeP] <;> norm_num)
  have hl : (len fun k => centre oppositeP x k - centre oppositeP y k) < _ := hl
  norm_num at hl
  linarith

/-- They are sheared with the shipped table, for any number of frames: always on opposite sides of the origin. -/
example (sch : Scheme) (hs : sch = .euler ∨ sch = .rk4) (N : ℕ) (hN : 0 < N) : ∃ d,
    program (listedWorld 7 .fts) (calmSettings sch N) (State.fresh oppositeStart) = some (some d, none) ∧
      ∀ e ∈ d.positions, e.P.spherePos 1 = fun k => -e.P.spherePos 0 k :=
  C94_pair (listedWorld_ships 7 .fts) rfl (.inl rfl) rfl rfl rfl (c := oppositeStart) opposite_twins (fun _ => rfl)
    (by norm_num [oppositeStart, oppositeP]) opposite_place (fun _ => rfl) (fun _ => rfl) (calmSettings_ok hs N 0)
    opposite_arrows hN opposite_apart
    fun u hu j _ s hrun he d hv => never_touching (listedWorld_ships 7 .fts) rfl hs rfl (by simp [oppositeStart, oppositeP])
      opposite_apart hu hrun he hv

/-- The same with a table that dissipates. -/
example (sch : Scheme) (hs : sch = .euler ∨ sch = .rk4) (N : ℕ) (hN : 0 < N) : ∃ d,
    program (shippedWorld 7 .fts) (calmSettings sch N) (State.fresh oppositeStart) = some (some d, none) ∧
      (∀ e ∈ d.positions, Exchanged negQ 0 swap01 (fun i => i) e.P) ∧
      ∀ f ∈ d.forces, turnedForces negQ f = reorderForces swap01 (fun i => i) f := by
  have hE := twins_equal opposite_twins
  have hN0 : 0 < oppositeStart.P.Ns := by simp [oppositeStart, oppositeP]
  refine C94_exchanged negQ_orth (c := oppositeStart) (swap01_reorders le_rfl) (id_reorders _) ?_
    (ships_blind (shippedWorld_ships 7 .fts)) (C68_inputs negQ_orth negQ_keeps (.inl rfl) (shippedWorld_ships 7 .fts))
    (listed_reordered (.inr (.inr rfl)) (shippedWorld_ships 7 .fts) (swap01_reorders le_rfl) (id_reorders _) (.inl rfl)
      (fun h => absurd h (by simp [oppositeStart, oppositeP])))
    dampT_dissipates (equal_balanced _ hE) (fun h => absurd h (by simp [calmSettings, starSettings, loneSettings]))
    (calmSettings_ok hs N 0) opposite_arrows hN
    (shipped_steady (shippedWorld_ships 7 .fts) rfl (fun x hx => ?_) (fun x hx y hy => ?_) ⟨by omega, by simp⟩ (.inl rfl)
      (by omega) (by omega) (by omega) (show 1 ≤ 7 ∧ 7 ≤ 7 ∧ _ from ⟨by omega, by omega, by omega⟩))
    opposite_apart (fun d _ f dt v r u hu => by rw [shippedWorld_ships] at hu; exact shipped_traceless hu)
    fun u hu j _ s hrun he d hv => never_touching (shippedWorld_ships 7 .fts) rfl hs rfl
      (by simp [oppositeStart, oppositeP]) opposite_apart hu hrun he hv
  · unfold Exchanged
    simp only [shift, turned, relabel, oppositeStart]
    congr 1
    · funext i
      rw [opposite_place i, turnVec_point]; funext k; simp
    · funext i
      rw [turnVec_point]; funext k; simp [oppositeP]
    · funext i
      rw [turnVec_point]; funext k; simp [oppositeP]
  · have e : radius oppositeStart.P x = 1 := hE x hx
    rw [e]; norm_num
  · have ex : radius oppositeStart.P x = 1 := hE x hx
    have ey : radius oppositeStart.P y = 1 := hE y hy
    rw [ex, ey]
    exact ⟨1, by simp [shippedWorld, constWorld, dampT], by norm_num⟩

/-- Any arrows, for any number of frames: the particles and forces of the file are those of the usual arrows. -/
example (sch : Scheme) (hs : sch = .euler ∨ sch = .rk4) (N : ℕ) (hN : 0 < N) (r : Rots)
    (hr : Arrows ⟨oppositeP, r⟩) : ∃ d d',
    program (listedWorld 7 .fts) (calmSettings sch N) (State.fresh oppositeStart) = some (some d, none) ∧
    program (listedWorld 7 .fts) (calmSettings sch N) (State.fresh ⟨oppositeP, r⟩) = some (some d', none) ∧ Alike d d' := by
  have run : ∀ r, Arrows ⟨oppositeP, r⟩ → ∃ d,
      program (listedWorld 7 .fts) (calmSettings sch N) (State.fresh ⟨oppositeP, r⟩) = some (some d, none) := by
    intro r hr
    obtain ⟨d, h, -⟩ := C94_pair (listedWorld_ships 7 .fts) rfl (.inl rfl) rfl rfl rfl (c := ⟨oppositeP, r⟩)
      (S := calmSettings sch N) opposite_twins (fun _ => rfl)
      (by norm_num [oppositeP]) opposite_place (fun _ => rfl) (fun _ => rfl) (calmSettings_ok hs N 0)
      hr hN opposite_apart
      fun u hu j _ s hrun he d hv => never_touching (listedWorld_ships 7 .fts) rfl (c := ⟨oppositeP, r⟩) hs rfl
        (show 0 < oppositeP.Ns by simp [oppositeP])
        opposite_apart hu hrun he hv
    exact ⟨d, h⟩
  obtain ⟨d, h⟩ := run _ opposite_arrows
  obtain ⟨d', h'⟩ := run r hr
  exact ⟨d, d', h, h', C94_files (ships_blind (listedWorld_ships 7 .fts)) (c := oppositeStart) (c' := ⟨oppositeP, r⟩) rfl h h'⟩

end SD
