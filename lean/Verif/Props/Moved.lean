import Verif.Lemmas.MovedProgram
import Verif.Props.Progress

/-!
# C64: a simulation and its rigid motion

Where the laboratory stands and which way its axes point is arbitrary. Whole runs respect this: every stage, step,
saved configuration and saved force, for all input forms, schemes and modes in an unbounded fluid.
-/

set_option autoImplicit false

namespace SD

open Spec Move

variable {Q : Fin 3 → Fin 3 → ℝ} {t : Vec3} {W W' : World} {S : Settings} {F : Prop}

/-- **C64** (program). Let the input function of `W'` answer, at the moved configuration, with the moved answer
of `W`. If the program of `W` runs through and meets only calm configurations, then the program of `W'`, started
from the moved state, runs through too and its files are the moved files. The watch on the first program changes
nothing. -/
theorem C64_program (hQ : Orthogonal Q) (hW : MovedWorld F S.input_form Q t W W') (hD : TableDissipates W.table)
    (hk : 0 < S.cutoff_factor) (hF : FlatOk S Q) {s s' : State} (hs : MovedState Q t s s')
    {out : Option Saved × Option Saved} (h : program (watched W (Calm W S)) S s = some out) :
    program W S s = some out ∧
    program W' S s' = some (out.1.map (movedSaved Q t), out.2.map (movedSaved Q t)) :=
  ⟨program_mono (watched_extends W _) h,
    program_moved hQ (watched_moved hW _) hk hF (fun _ _ _ _ _ _ h => calm_kept (W := watched W (Calm W S)) hD hk (watched_calm h)) hs h⟩

theorem fresh_moved (c : Config) : MovedState Q t (State.fresh c) (State.fresh (movedConfig Q t c)) :=
  ⟨rfl, rfl, blank_turned.symm, rfl, rfl, rfl⟩

/-- **C64** (frames). The same for the state after any number of frames: positions, orientation arrows, the error flag, the
velocities kept for the next frame and everything saved so far. -/
theorem C64_frames (hQ : Orthogonal Q) (hW : MovedWorld F S.input_form Q t W W') (hD : TableDissipates W.table)
    (hk : 0 < S.cutoff_factor) (hF : FlatOk S Q) {bl tr bl' tr' : Vec3} (hb : bl = tr) (hb' : bl' = tr')
    {c : Config} {k : ℕ} {s : State} (h : runFrames (watched W (Calm W S)) S bl tr (State.fresh c) k = some s) :
    runFrames W S bl tr (State.fresh c) k = some s ∧
    ∃ s', runFrames W' S bl' tr' (State.fresh (movedConfig Q t c)) k = some s' ∧ MovedState Q t s s' := by
  refine ⟨run_mono (watched_extends W _) _ h, ?_⟩
  obtain ⟨s', h1, h2, -⟩ := run_moved (bl' := bl') (tr' := tr') hQ (watched_moved hW (Calm W S)) hk hF
    (fun _ _ _ _ _ _ h => calm_kept (W := watched W (Calm W S)) hD hk (watched_calm h)) hb hb' (fresh_moved c) _ h
  exact ⟨s', h1, h2⟩

/-- The watch does not stop a program whose inputs are in order before beads touch. -/
theorem watched_ready {c : Config} (h : Ready W S c)
    (hi : ∀ f dt v r u, W.input_ftsuoe c f dt v r = some u →
      Sized c.P.Ns c.P.Nd u.inp ∧ Traceless u.inp ∧ 0 < u.mu) : Ready (watched W (Calm W S)) S c := by
  have hc : Calm W S c := ⟨h.sensible, h.separate, h.tabulated, h.allowed, h.beads, hi⟩
  refine ⟨h.sensible, h.separate, h.tabulated, h.allowed, h.beads, fun f dt v r => ?_⟩
  obtain ⟨u, h1, h2⟩ := h.answers f dt v r
  refine ⟨u, ?_, h2⟩
  unfold watched
  dsimp only
  rw [if_pos hc]
  exact h1

theorem visits_mono (hE : Extends W W') {bl tr : Vec3} {f : ℕ} {s : State} {d : Config} (h : Visits W S bl tr f s d) :
    Visits W' S bl tr f s d := by
  rcases h with rfl | ⟨hs, st1, v1, p1, a1, a2, a3, h⟩
  · exact .inl rfl
  refine .inr ⟨hs, st1, v1, p1, output_mono hE _ a1, a2, a3, ?_⟩
  rcases h with rfl | ⟨st2, v2, p2, b1, b2, b3, h⟩
  · exact .inl rfl
  refine .inr ⟨st2, v2, p2, output_mono hE _ b1, b2, b3, ?_⟩
  rcases h with rfl | ⟨st3, v3, p3, c1, c2, c3, rfl⟩
  · exact .inl rfl
  exact .inr ⟨st3, v3, p3, output_mono hE _ c1, c2, c3, rfl⟩

/-- What is asked of a configuration, with a solver that keeps the property `K` of the cache. -/
structure Settled (W : World) (S : Settings) (K : NDMat → Prop) (c : Config) : Prop where
  sensible : Sensible c.P
  tabulated : Tabulated W.table.lam c.P S.cutoff_factor
  allowed : formAllowed S.input_form c.P.Ns
  inputs : ∀ f dt v r u, W.input_ftsuoe c f dt v r = some u → Sized c.P.Ns c.P.Nd u.inp ∧ Traceless u.inp
  serves : Serves W S K c

theorem serves_watched {K : NDMat → Prop} {G : Config → Prop} {c : Config} (h : Serves W S K c) :
    Serves (watched W G) S K c :=
  fun hu hl => h (watched_input hu).2 hl

theorem settled_kept {K : NDMat → Prop} {c : Config} (h : Settled W S K c) : Kept W S (fun _ _ => K) c := by
  refine ⟨h.sensible, h.tabulated, h.allowed, h.inputs, fun f lv u last reg R C hu hl hG => ?_⟩
  obtain ⟨R', C', h1, h2, h3⟩ := h.serves hu hl
  rw [hG] at h1
  obtain ⟨rfl, rfl⟩ := Prod.mk.inj (Option.some.inj h1)
  exact ⟨h2.pos, h3⟩

/-- Runs that the solver serves everywhere before beads touch. -/
theorem moved_untouched {K : NDMat → Prop} (hQ : Orthogonal Q) (hW : MovedWorld F S.input_form Q t W W')
    (hF : FlatOk S Q) {c : Config} (hK : ∀ d, SameSizes c d → Ready W S d → Serves W S K d) (hS : Runnable S c.P.Nd)
    (ha : Arrows c) (hN : 0 < S.num_frames) (hc : Steady W S c) (h0 : ¬ Touching c.P)
    (hT : ∀ d, SameSizes c d → ∀ f dt v r u, W.input_ftsuoe d f dt v r = some u → Traceless u.inp)
    (hno : ∀ u, W.input_ftsuoe c 0 0.1 Vel.blank none = some u →
      ∀ j < S.num_frames, ∀ s, runFrames W S u.bl u.tr (State.fresh c) j = some s → s.error = false →
      ∀ d, Visits W S u.bl u.tr j s d → ¬ Touching d.P) :
    ∃ d, program W S (State.fresh c) = some (some d, none) ∧
      program W' S (State.fresh (movedConfig Q t c)) = some (some (movedSaved Q t d), none) := by
  have ready : ∀ d, SameSizes c d → ¬ Touching d.P → Ready (watched W (Settled W S K)) S d ∧
      Serves (watched W (Settled W S K)) S K d := by
    intro d hd ht
    have hr := steady_ready hc hd ht
    have hs : Serves W S K d := fun {_ _ _ _ _} => hK d hd hr
    refine ⟨⟨hr.sensible, hr.separate, hr.tabulated, hr.allowed, hr.beads, fun f dt v r => ?_⟩, serves_watched hs⟩
    obtain ⟨u, h1, h2⟩ := hr.answers f dt v r
    refine ⟨u, ?_, h2⟩
    have ho : Settled W S K d := by
      refine ⟨hr.sensible, hr.tabulated, hr.allowed, fun f dt v r u hu => ?_, hs⟩
      obtain ⟨u', g1, g2, -⟩ := hr.answers f dt v r
      obtain rfl := Option.some.inj (hu.symm.trans g1)
      exact ⟨g2, hT d hd _ _ _ _ _ hu⟩
    unfold watched
    dsimp only
    rw [if_pos ho]
    exact h1
  obtain ⟨d, hd⟩ := program_exists (W := watched W (Settled W S K)) (K := K) hS ha hN
    (ready c ⟨rfl, rfl, rfl, rfl⟩ h0).1 (by
    intro u hu j hj s hs he d hv
    have hz := run_sizes hs
    have hsz : SameSizes c d := SameSizes.trans ⟨hz.1, hz.2.1, hz.2.2.1, hz.2.2.2⟩ (visits_sizes hv)
    exact ready d hsz (hno u (watched_input hu).2 j hj s (run_mono (watched_extends W _) _ hs) he d
      (visits_mono (watched_extends W _) hv)))
  refine ⟨d, program_mono (watched_extends W _) hd, ?_⟩
  exact program_moved (K := fun _ _ => K) (s := State.fresh c) hQ (watched_moved hW _) hS.cutoff hF (by
    intro d f dt v r u hu
    have ho := (watched_input hu).1
    exact settled_kept ⟨ho.sensible, ho.tabulated, ho.allowed,
      fun f dt v r u hu => ho.inputs f dt v r u (watched_input hu).2, serves_watched ho.serves⟩)
    (fresh_moved c) hd

/-- **C64** (untouched). For inputs that are in order wherever the particles are, as long as no two beads come closer
than 2.001 average radii, both programs run through, and the moved one saves the moved file. -/
theorem C64_untouched (hQ : Orthogonal Q) (hW : MovedWorld F S.input_form Q t W W') (hD : TableDissipates W.table)
    (hF : FlatOk S Q) {c : Config} (hS : Runnable S c.P.Nd) (ha : Arrows c) (hN : 0 < S.num_frames)
    (hc : Steady W S c) (h0 : ¬ Touching c.P)
    (hT : ∀ d, SameSizes c d → ∀ f dt v r u, W.input_ftsuoe d f dt v r = some u → Traceless u.inp)
    (hno : ∀ u, W.input_ftsuoe c 0 0.1 Vel.blank none = some u →
      ∀ j < S.num_frames, ∀ s, runFrames W S u.bl u.tr (State.fresh c) j = some s → s.error = false →
      ∀ d, Visits W S u.bl u.tr j s d → ¬ Touching d.P) :
    ∃ d, program W S (State.fresh c) = some (some d, none) ∧
      program W' S (State.fresh (movedConfig Q t c)) = some (some (movedSaved Q t d), none) :=
  moved_untouched (K := Sound c.P) hQ hW hF (fun _ hd hr => dissipates_serves hD hS.cutoff hr hd.Ns hd.Nd) hS ha hN hc h0
    hT hno

/-! ## The hypotheses can be met -/

/-- The answer `u` moved. -/
noncomputable def movedUser (Q : Fin 3 → Fin 3 → ℝ) (t : Vec3) (u : UserInput) : UserInput :=
  { u with inp := (turning Q).inputs u.inp u.inp, U := turnVec Q u.U, O := turnAxial Q u.O
           centre := movePoint Q t u.centre }

theorem const_moved {form : InputForm} {u : UserInput} (hu : u.bl = u.tr) :
    MovedWorld True form Q t (constWorld u) (constWorld (movedUser Q t u)) := by
  refine ⟨rfl, fun c f dt v r r' w _ hw => ⟨_, rfl, ?_⟩⟩
  obtain rfl := Option.some.inj hw
  exact ⟨rfl, rfl, rfl, fun _ => rfl, fun h => absurd trivial h, rfl, hu, hu⟩

theorem star_ready_watched (U O c : Vec3) (sch : Scheme) (N : ℕ) :
    Ready (watched (constWorld (starUser U O c)) (Calm (constWorld (starUser U O c)) (starSettings sch N)))
      (starSettings sch N) starStart := by
  refine watched_ready (steady_ready (star_steady U O c _ _) ⟨rfl, rfl, rfl, rfl⟩ star_apart) ?_
  intro f dt v r u hu
  obtain rfl := Option.some.inj hu
  exact ⟨starInp_sized, starInp_traceless, by norm_num [starUser]⟩

/-- A sphere between two dumbbells in a flow, with forces on all of them, near and far field, for one Euler frame: it
can be watched, so the moved program saves the moved file. -/
example (U O c t : Vec3) : ∃ d,
    program (constWorld (starUser U O c)) (starSettings .euler 1) (State.fresh starStart) = some (some d, none) ∧
    program (constWorld (movedUser demoQ t (starUser U O c))) (starSettings .euler 1)
      (State.fresh (movedConfig demoQ t starStart)) = some (some (movedSaved demoQ t d), none) := by
  obtain ⟨d, hd⟩ := C65_program (W := watched (constWorld (starUser U O c)) (Calm (constWorld (starUser U O c))
      (starSettings .euler 1))) dampT_dissipates (starSettings_ok 1 (.inl rfl)) starStart_arrows
    (by simp [starSettings, loneSettings]) (star_ready_watched U O c _ _) (by
      intro u _ j hj s hs _ d hv
      obtain rfl : j = 0 := by simpa [starSettings, loneSettings] using hj
      obtain rfl := Option.some.inj hs
      rcases hv with rfl | ⟨h, -⟩
      · exact star_ready_watched U O c _ _
      · simp [starSettings, loneSettings] at h)
  obtain ⟨h1, h2⟩ := C64_program demoQ_orth (const_moved (t := t) (u := starUser U O c) rfl) dampT_dissipates
    (by norm_num [starSettings]) (fun h => by simp [starSettings, loneSettings] at h) (fresh_moved starStart) hd
  exact ⟨d, h1, h2⟩

/-- The reflection that exchanges `x` and `y`. -/
def mirrorXY : Fin 3 → Fin 3 → ℝ := ![![0, 1, 0], ![1, 0, 0], ![0, 0, 1]]

/-- A sphere dragged through a flow for any number of Runge-Kutta frames, mirrored. -/
example (V U O c t : Vec3) (N : ℕ) (hN : 0 < N) : ∃ d,
    program (constWorld { loneUser V U O c 0 with mu := 3 }) (starSettings .rk4 N) (State.fresh loneStart)
      = some (some d, none) ∧
    program (constWorld (movedUser mirrorXY t { loneUser V U O c 0 with mu := 3 })) (starSettings .rk4 N)
      (State.fresh (movedConfig mirrorXY t loneStart)) = some (some (movedSaved mirrorXY t d), none) := by
  set W := constWorld { loneUser V U O c 0 with mu := 3 } with hW
  have hst : Steady (watched W (Calm W (starSettings .rk4 N))) (starSettings .rk4 N) loneStart := by
    have h := lone_steady V U O c .rk4 N
    refine ⟨h.radii, h.ratios, h.allowed, h.beads, fun d hd _ f dt v r => ?_⟩
    have hr : Ready W (starSettings .rk4 N) d := steady_ready h hd (by
      rintro ⟨x, hx, y, hy, hxy, -⟩
      rw [(same_beads hd).1] at hx hy
      simp [beads, loneStart, loneP] at hx hy
      omega)
    obtain ⟨u, h1, h2, h3, h4⟩ := (watched_ready hr (by
      intro f dt v r u hu
      obtain rfl := Option.some.inj hu
      obtain ⟨u', e1, e2, e3, e4, -⟩ := hr.answers f dt v r
      obtain rfl := Option.some.inj e1
      refine ⟨e2, ⟨?_, ?_⟩, e4⟩
      · intro m hm
        simp only [loneUser, loneInputs, List.mem_cons, List.not_mem_nil, or_false] at hm
        rw [num33_inj hm]
        exact ⟨fun i j => rfl, by simp⟩
      · intro m hm
        simp only [loneUser, loneInputs, List.mem_cons, List.not_mem_nil, or_false] at hm
        rw [num33_inj hm]
        exact ⟨fun i j => rfl, by simp⟩)).answers f dt v r
    rw [hd.Ns, hd.Nd] at h2 h3 h4
    exact ⟨u, h1, h2, h3, h4⟩
  obtain ⟨d, hd⟩ := C65_single dampT_dissipates (starSettings_ok N (.inr (.inr rfl))) loneStart_isLone.arrows hN hst
    (by simp [beads, loneStart, loneP])
  obtain ⟨h1, h2⟩ := C64_program (Q := mirrorXY) mirror_orth (const_moved (t := t) (u := { loneUser V U O c 0 with mu := 3 }) rfl)
    dampT_dissipates (by norm_num [starSettings]) (fun h => by simp [starSettings, loneSettings] at h)
    (fresh_moved loneStart) hd
  exact ⟨d, h1, h2⟩

end SD
