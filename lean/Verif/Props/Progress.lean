import Verif.Lemmas.Progress
import Verif.Props.SolveTurn
import Verif.Props.Step
import Verif.Props.Resume

/-!
# C65: a run stops only when beads touch
-/

set_option autoImplicit false

namespace SD

open Spec Move

variable {W : World} {S : Settings}

/-- The program writes its file if at all configurations that it visits the inputs are ready and the solver works. -/
theorem program_exists {K : NDMat → Prop} {c : Config} (hS : Runnable S c.P.Nd) (ha : Arrows c)
    (hN : 0 < S.num_frames) (hc : Ready W S c)
    (hi : ∀ u, W.input_ftsuoe c 0 0.1 Vel.blank none = some u →
      ∀ j < S.num_frames, ∀ s, runFrames W S u.bl u.tr (State.fresh c) j = some s → s.error = false →
      ∀ d, Visits W S u.bl u.tr j s d → Ready W S d ∧ Serves W S K d) :
    ∃ d, program W S (State.fresh c) = some (some d, none) := by
  obtain ⟨u, hu, -, -, -, hb, -⟩ := hc.answers 0 0.1 Vel.blank none
  obtain ⟨s, h1, -, -, -, h5⟩ := run_exists hS ha hb S.num_frames (hi u hu)
  obtain ⟨-, ⟨p, hp⟩, g, hg⟩ := h5 hN
  refine ⟨⟨p, g⟩, ?_⟩
  unfold program
  refine Option.bind_eq_some_iff.mpr ⟨u, hu, ?_⟩
  rw [hS.start, Nat.sub_zero]
  refine Option.bind_eq_some_iff.mpr ⟨s, h1, ?_⟩
  unfold finalSave
  rw [if_pos (.inl hS.force), hp, hg]
  rfl

theorem SameSizes.trans {a b c : Config} (h : SameSizes a b) (g : SameSizes b c) : SameSizes a c :=
  ⟨g.Ns.trans h.Ns, g.Nd.trans h.Nd, g.spheres.trans h.spheres, g.dumbs.trans h.dumbs⟩

theorem move_sizes {bl tr : Vec3} {c : Config} {st : Stage} {v : Vel} {dt : ℝ} {e : Bool} {p : Config × Bool}
    (h : rk4Move S bl tr c st v dt e = some p) : SameSizes c p.1 := by
  unfold rk4Move at h
  obtain ⟨sp, -, h⟩ := Option.bind_eq_some_iff.mp h
  obtain ⟨db, -, h⟩ := Option.bind_eq_some_iff.mp h
  obtain rfl := Option.some.inj h
  exact ⟨rfl, rfl, rfl, rfl⟩

theorem visits_sizes {bl tr : Vec3} {f : ℕ} {s : State} {d : Config} (h : Visits W S bl tr f s d) :
    SameSizes s.posdata d := by
  rcases h with rfl | ⟨-, st1, v1, p1, -, -, m1, rfl | ⟨st2, v2, p2, -, -, m2, rfl | ⟨st3, v3, p3, -, -, m3, rfl⟩⟩⟩
  · exact ⟨rfl, rfl, rfl, rfl⟩
  · exact move_sizes m1
  · exact move_sizes m2
  · exact move_sizes m3

/-- **C65** (program). The program writes its file if all configurations that it visits are ready: no inversion,
solution or rotation fails on the way, in any of the input forms, schemes and modes. -/
theorem C65_program (hD : TableDissipates W.table) {c : Config} (hS : Runnable S c.P.Nd) (ha : Arrows c)
    (hN : 0 < S.num_frames) (hc : Ready W S c)
    (hi : ∀ u, W.input_ftsuoe c 0 0.1 Vel.blank none = some u →
      ∀ j < S.num_frames, ∀ s, runFrames W S u.bl u.tr (State.fresh c) j = some s → s.error = false →
      ∀ d, Visits W S u.bl u.tr j s d → Ready W S d) :
    ∃ d, program W S (State.fresh c) = some (some d, none) := by
  refine program_exists (K := Sound c.P) hS ha hN hc fun u hu j hj s hs he d hv => ?_
  have hr := hi u hu j hj s hs he d hv
  have hz := run_sizes hs
  have hd := visits_sizes hv
  exact ⟨hr, dissipates_serves hD hS.cutoff hr (hd.Ns.trans hz.1) (hd.Nd.trans hz.2.1)⟩

theorem same_beads {c d : Config} (h : SameSizes c d) : beads d.P = beads c.P ∧ radius d.P = radius c.P := by
  constructor
  · unfold beads; rw [h.Ns, h.Nd]
  · funext x; unfold radius; rw [h.Ns, h.Nd, h.spheres, h.dumbs]

theorem steady_ready {c d : Config} (hc : Steady W S c) (h : SameSizes c d) (ht : ¬ Touching d.P) : Ready W S d := by
  obtain ⟨e1, e2⟩ := same_beads h
  have hsep : Separate d.P := by
    intro x hx y hy hxy
    by_contra hn
    exact ht ⟨x, hx, y, hy, hxy, lt_of_not_ge hn⟩
  refine ⟨⟨?_, ?_⟩, hsep, ?_, by rw [h.Ns]; exact hc.allowed, by rw [h.Nd]; exact hc.beads, ?_⟩
  · intro x hx
    rw [e2]
    exact lt_trans (by norm_num) (hc.radii x (e1 ▸ hx))
  · intro x hx y hy hxy
    refine lt_of_lt_of_le ?_ (hsep x hx y hy hxy)
    have h1 := hc.radii x (e1 ▸ hx)
    have h2 := hc.radii y (e1 ▸ hy)
    rw [e2]
    norm_num at h1 h2 ⊢
    linarith
  · intro x hx y hy _
    rw [e2]
    exact hc.ratios x (e1 ▸ hx) y (e1 ▸ hy)
  · intro f dt v r
    obtain ⟨u, h1, h2, h3, h4⟩ := hc.answers d h ht f dt v r
    refine ⟨u, h1, ?_, ?_, ?_⟩
    · rw [h.Ns, h.Nd]; exact h2
    · rw [h.Ns, h.Nd]; exact h3
    · rw [h.Ns, h.Nd]; exact h4

/-- **C65** (why a run stops). With particles and inputs that are in order, from a start without touching beads, the
program is stopped by an exception only in a frame in which two beads come closer than 2.001 average radii. -/
theorem C65_stops (hD : TableDissipates W.table) {c : Config} (hS : Runnable S c.P.Nd) (ha : Arrows c)
    (hN : 0 < S.num_frames) (hc : Steady W S c) (h0 : ¬ Touching c.P)
    (h : program W S (State.fresh c) = none) :
    ∃ u, W.input_ftsuoe c 0 0.1 Vel.blank none = some u ∧
      ∃ j < S.num_frames, ∃ s, runFrames W S u.bl u.tr (State.fresh c) j = some s ∧ s.error = false ∧
        ∃ d, Visits W S u.bl u.tr j s d ∧ SameSizes c d ∧ Touching d.P := by
  by_contra hno
  have hr : Ready W S c := steady_ready hc ⟨rfl, rfl, rfl, rfl⟩ h0
  obtain ⟨d, hd⟩ := C65_program hD hS ha hN hr (by
    intro u hu j hj s hs he d hv
    have hz := run_sizes hs
    have hsz : SameSizes c d := SameSizes.trans ⟨hz.1, hz.2.1, hz.2.2.1, hz.2.2.2⟩ (visits_sizes hv)
    refine steady_ready hc hsz fun ht => hno ⟨u, hu, j, hj, s, hs, he, d, hv, hsz, ht⟩)
  rw [h] at hd
  exact absurd hd (by simp)

/-- **C65** (a single sphere). With one sphere and inputs that are in order the program always writes its file. -/
theorem C65_single (hD : TableDissipates W.table) {c : Config} (hS : Runnable S c.P.Nd) (ha : Arrows c)
    (hN : 0 < S.num_frames) (hc : Steady W S c) (h1 : beads c.P = 1) :
    ∃ d, program W S (State.fresh c) = some (some d, none) := by
  have hno : ∀ d, SameSizes c d → ¬ Touching d.P := by
    rintro d hd ⟨x, hx, y, hy, hxy, -⟩
    rw [(same_beads hd).1, h1] at hx hy
    omega
  refine C65_program hD hS ha hN (steady_ready hc ⟨rfl, rfl, rfl, rfl⟩ (hno c ⟨rfl, rfl, rfl, rfl⟩)) ?_
  intro u hu j hj s hs he d hv
  have hz := run_sizes hs
  have hsz : SameSizes c d := SameSizes.trans ⟨hz.1, hz.2.1, hz.2.2.1, hz.2.2.2⟩ (visits_sizes hv)
  exact steady_ready hc hsz (hno d hsz)

/-! ## The hypotheses can be met -/

/-- The input function that always answers `u`. -/
noncomputable def constWorld (u : UserInput) : World where
  table := dampT
  input_ftsuoe := fun _ _ _ _ _ => some u
  Minfinity_periodic := fun _ _ _ _ _ _ => NDMat.zeros 1 1
  R2Bexact_periodic := fun _ _ _ _ _ _ _ => none

/-- The forces `starInp` in the flow `U + O × (x - c)`. -/
noncomputable def starUser (U O c : Vec3) : UserInput where
  inp := starInp
  U := U
  O := O
  centre := c
  Ot := 0
  Et := 0
  bl := 0
  tr := 0
  mu := 3

/-- A sphere between two dumbbells, with its arrows. -/
noncomputable def starStart : Config := ⟨starP, defaultRots starP.spherePos starP.sphereSize⟩

theorem starStart_arrows : Arrows starStart := by
  intro i _ j h
  have h0 := congrFun h 0
  have h2 := congrFun h 2
  by_cases hj : j = 0 <;> simp [starStart, defaultRots, starP, hj] at h0 h2

/-- `N` frames with near and far field, in the form `ufte`. -/
noncomputable def starSettings (sch : Scheme) (N : ℕ) : Settings :=
  { loneSettings sch N with cutoff_factor := 5, use_Minfinity_only := false }

theorem starSettings_ok {sch : Scheme} (N : ℕ) {Nd : ℕ} (h : sch = .euler ∨ (sch = .ab2 ∧ Nd = 0) ∨ sch = .rk4) :
    Runnable (starSettings sch N) Nd where
  scheme := h
  extract := rfl
  cutoff := by norm_num [starSettings]
  every := by simp [starSettings, loneSettings]
  start := rfl
  first := rfl
  pos := by simp [starSettings, loneSettings]
  force := by simp [starSettings, loneSettings]
  temp := by simp [starSettings, loneSettings]

theorem starInp_complete_ufte : Complete .ufte 1 2 starInp := by
  refine ⟨0, by omega, by simp, by simp [starInp], ?_, ?_, ⟨le_rfl, ?_⟩, ?_, ?_⟩
  all_goals
    simp only [starInp, List.drop_zero, List.mem_cons, List.not_mem_nil, or_false, forall_eq_or_imp, forall_eq]
    simp only [given_num3, given_num33, and_self]

theorem star_steady (U O c : Vec3) (sch : Scheme) (N : ℕ) :
    Steady (constWorld (starUser U O c)) (starSettings sch N) starStart where
  radii x hx := by rw [show starStart.P = starP from rfl, starP_radius hx]; norm_num
  ratios x hx y hy := by
    rw [show starStart.P = starP from rfl, starP_radius hx, starP_radius hy]
    exact ⟨1, by norm_num [constWorld, dampT], by norm_num⟩
  allowed := ⟨by simp [starStart, starP], by simp [starSettings, loneSettings]⟩
  beads := .inl rfl
  answers d hd _ f dt v r := ⟨_, rfl, starInp_sized, starInp_complete_ufte, by norm_num [starUser], rfl,
    fun h => absurd h (by simp [starStart, starP])⟩

theorem star_apart : ¬ Touching starStart.P := by
  rintro ⟨x, hx, y, hy, hxy, h⟩
  exact absurd (starP_separate x hx y hy hxy) (not_le.mpr h)

/-- A sphere between two dumbbells, near and far field: one Euler frame. -/
example (U O c : Vec3) : ∃ d, program (constWorld (starUser U O c)) (starSettings .euler 1) (State.fresh starStart)
    = some (some d, none) := by
  refine C65_program dampT_dissipates (starSettings_ok 1 (.inl rfl)) starStart_arrows (by simp [starSettings, loneSettings])
    (steady_ready (star_steady U O c _ _) ⟨rfl, rfl, rfl, rfl⟩ star_apart) ?_
  intro u _ j hj s hs _ d hv
  obtain rfl : j = 0 := by simpa [starSettings, loneSettings] using hj
  obtain rfl := Option.some.inj hs
  rcases hv with rfl | ⟨h, -⟩
  · exact steady_ready (star_steady U O c _ _) ⟨rfl, rfl, rfl, rfl⟩ star_apart
  · simp [starSettings, loneSettings] at h

/-- The conditions of `C65_stops` hold for it for any number of frames and any scheme with dumbbells. -/
example (U O c : Vec3) (N : ℕ) (hN : 0 < N) : Runnable (starSettings .rk4 N) starStart.P.Nd ∧ Arrows starStart ∧
    0 < (starSettings .rk4 N).num_frames ∧ Steady (constWorld (starUser U O c)) (starSettings .rk4 N) starStart ∧
    ¬ Touching starStart.P :=
  ⟨starSettings_ok N (.inr (.inr rfl)), starStart_arrows, hN, star_steady U O c _ _, star_apart⟩

theorem lone_steady (V U O c : Vec3) (sch : Scheme) (N : ℕ) :
    Steady (constWorld { loneUser V U O c 0 with mu := 3 }) (starSettings sch N) loneStart where
  radii x hx := by
    have : x = 0 := by simp [beads, loneStart, loneP] at hx; omega
    subst this
    norm_num [radius, loneStart, loneP]
  ratios x hx y hy := by
    have h1 : x = 0 := by simp [beads, loneStart, loneP] at hx; omega
    have h2 : y = 0 := by simp [beads, loneStart, loneP] at hy; omega
    subst h1; subst h2
    exact ⟨1, by norm_num [constWorld, dampT], by norm_num [radius, loneStart, loneP]⟩
  allowed := ⟨by simp [loneStart, loneP], by simp [starSettings, loneSettings]⟩
  beads := .inl rfl
  answers d hd _ f dt v r := by
    refine ⟨_, rfl, ⟨rfl, rfl, rfl, rfl, rfl, rfl, rfl, rfl⟩, ?_, by norm_num, rfl,
      fun h => absurd h (by simp [loneStart, loneP])⟩
    refine ⟨1, le_rfl, ?_, ?_, ?_, ?_, ⟨le_rfl, ?_⟩, ?_, ?_⟩
    all_goals simp [loneUser, loneInputs, given_num3, given_num33]

/-- A sphere dragged along in a flow, for any number of Runge-Kutta frames. -/
example (V U O c : Vec3) (N : ℕ) (hN : 0 < N) :
    ∃ d, program (constWorld { loneUser V U O c 0 with mu := 3 }) (starSettings .rk4 N) (State.fresh loneStart)
      = some (some d, none) :=
  C65_single dampT_dissipates (starSettings_ok N (.inr (.inr rfl))) loneStart_isLone.arrows hN (lone_steady V U O c _ _)
    (by simp [beads, loneStart, loneP])

end SD
