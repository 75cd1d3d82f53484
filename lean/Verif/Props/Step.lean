import Verif.Props.Cache
import Verif.Lemmas.DumbRun
import Mathlib.Analysis.SpecialFunctions.Integrals.Basic

/-!
# C27, C29, C34: the time step of a frame, two-dimensional runs, explosion protection

In the statements `generate_output_FTSUOE W S c t C false lv = some st` says that `st` is the solution for the
configuration `c` at frame `t` with the far-field inverse `C`.
-/

set_option autoImplicit false

namespace SD

open Spec

variable {W : World} {S : Settings} {bl tr : Vec3}

/-- The velocity of sphere `i` in a stage: the velocity solved for plus the background flow at `x`. -/
noncomputable def sphereVel (st : Stage) (i : ℕ) (x : Vec3) : Vec3 := fun k =>
  st.out.Ua.getD i 0 k + affineFlow st.U st.O st.centre (st.out.Ea.getD i 0) x k

/-- The velocities of the two beads (`sg = -1` and `sg = 1`) of dumbbell `i` in a stage: the velocity solved for
plus the background flow with the strain `E` at `x`. -/
noncomputable def beadVel (st : Stage) (E : Mat3) (sg : ℝ) (i : ℕ) (x : Vec3) : Vec3 := fun k =>
  st.out.Ub.getD i 0 k + sg * st.out.HalfDUb.getD i 0 k + affineFlow st.U st.O st.centre E x k

/-- The position of a bead of dumbbell `i`. -/
noncomputable def beadPos (P : PosData) (sg : ℝ) (i : ℕ) : Vec3 := fun k => P.dumbPos i k + sg * (P.dumbDx i k / 2)

theorem stageVel_spheres {c : Config} {st : Stage} {Ed : List Mat3} {v : Vel}
    (h : stageVel c st Ed = some v) {i : ℕ} (hi : i < c.P.Ns) :
    v.Ua i = sphereVel st i (c.P.spherePos i) ∧ (∀ k, v.Oa i k = st.out.Oa.getD i 0 k + st.O k) ∧
      i < st.out.Ea.length := by
  unfold stageVel at h
  by_cases h1 : 0 < c.P.Ns ∧ st.out.Ea.length < c.P.Ns
  · rw [if_pos h1] at h; exact absurd h (by simp)
  rw [if_neg h1] at h
  by_cases h2 : 0 < c.P.Nd ∧ Ed = []
  · rw [if_pos h2] at h; exact absurd h (by simp)
  rw [if_neg h2] at h
  obtain rfl := Option.some.inj h
  have hp : 0 < c.P.Ns := by omega
  refine ⟨?_, fun k => ?_, by omega⟩
  · funext k
    dsimp only
    rw [if_pos hp, (C31_spheres _ _ _ _ _ _ _ _ _).1]
    rfl
  · dsimp only
    rw [if_pos hp, (C31_spheres _ _ _ _ _ _ _ _ _).2]
    rfl

theorem stageVel_beads {c : Config} {st : Stage} {Ed : List Mat3} {v : Vel}
    (h : stageVel c st Ed = some v) (hd : 0 < c.P.Nd) (i : ℕ) :
    Ed ≠ [] ∧ ∀ sg : ℝ, sg = -1 ∨ sg = 1 → ∀ k,
      v.Ub i k + sg * v.HalfDUb i k = beadVel st (Ed.headD 0) sg i (beadPos c.P sg i) k := by
  unfold stageVel at h
  by_cases h1 : 0 < c.P.Ns ∧ st.out.Ea.length < c.P.Ns
  · rw [if_pos h1] at h; exact absurd h (by simp)
  rw [if_neg h1] at h
  by_cases h2 : 0 < c.P.Nd ∧ Ed = []
  · rw [if_pos h2] at h; exact absurd h (by simp)
  rw [if_neg h2] at h
  obtain rfl := Option.some.inj h
  refine ⟨fun he => h2 ⟨hd, he⟩, fun sg hsg k => ?_⟩
  have := C31_dumbbells (asArr st.out.Ub) (asArr st.out.HalfDUb) (Ed.headD 0) st.U st.O c.P.dumbPos c.P.dumbDx
    st.centre i k
  dsimp only
  rw [if_pos hd, if_pos hd]
  unfold beadVel
  rcases hsg with rfl | rfl
  · have e : beadPos c.P (-1) i = fun m => c.P.dumbPos i m - c.P.dumbDx i m / 2 := by
      funext m; unfold beadPos; ring
    rw [e, neg_one_mul, ← sub_eq_add_neg, this.1]
    simp only [asArr]
    ring
  · have e : beadPos c.P 1 i = fun m => c.P.dumbPos i m + c.P.dumbDx i m / 2 := by
      funext m; unfold beadPos; ring
    rw [e, one_mul, this.2]
    simp only [asArr]
    ring

/-- A position in a periodic box is brought back into it; otherwise nothing happens. -/
def Wrapped (bl tr : Vec3) (st : Stage) (x y : Vec3) : Prop :=
  ((∀ k, bl k - tr k = 0) → y = x) ∧
  ((¬ ∀ k, bl k - tr k = 0) → wrap_around x bl tr st.Ot st.Et = some y)

theorem wrapIf_wrapped {st : Stage} {x y : ℕ → Vec3} (h : wrapIf bl tr st.Ot st.Et x = some y) (i : ℕ) :
    Wrapped bl tr st (x i) (y i) := by
  constructor
  · intro h0
    rw [(wrapIf_nonperiodic (by unfold isPeriodic; exact not_not.mpr h0)).mp h]
  · intro h0
    unfold wrapIf at h
    rw [if_pos (show isPeriodic bl tr from h0)] at h
    split_ifs at h with hall
    obtain rfl := Option.some.inj h
    obtain ⟨z, hz⟩ := Option.isSome_iff_exists.mp (hall i)
    show _ = some ((wrap_around (x i) bl tr st.Ot st.Et).getD (x i))
    rw [hz]
    rfl

/-! ## C27 -/

/-- **C27** (Euler). A frame of an Euler run, and the first frame of an Adams-Bashforth run, moves every sphere by
its velocity (solved velocity plus background flow) times the time step. -/
theorem C27_euler {f : ℕ} {s s' : State} (hsch : S.scheme = .euler ∨ (S.scheme = .ab2 ∧ f = S.start))
    (h2d : S.fully_2d_problem = false) (he : s.error = false)
    (hf : generate_frame W S bl tr f s = some s') :
    ∃ st, generate_output_FTSUOE W S s.posdata f s'.cache false
        (if f = 0 ∨ f = S.start then Vel.blank else s.lastVel) = some st ∧
      ∀ i < s.posdata.P.Ns, Wrapped bl tr st
        (fun k => s.posdata.P.spherePos i k + S.timestep * sphereVel st i (s.posdata.P.spherePos i) k)
        (s'.posdata.P.spherePos i) := by
  obtain ⟨hn, r, h1, h2, -, h3, -⟩ := frame_some he hf
  rcases timeStep_cases h1 with ⟨-, h⟩ | ⟨hs, -⟩
  · obtain ⟨st, v0, v, hp⟩ := euler_parts h
    refine ⟨st, ?_, fun i hi => ?_⟩
    · rw [h3, hp.cache_eq]; exact output_pin hp.stage
    · have hv : v = v0 := by rw [hp.flat, h2d]; rfl
      obtain ⟨new, rots, e1, -, e2, -⟩ := hp.spheres (by omega)
      rw [if_pos (by rcases hsch with h | ⟨-, h⟩
                     · exact .inl h
                     · exact .inr (by omega))] at e1
      have := wrapIf_wrapped e2 i
      rw [e1, hv] at this
      unfold euler_timestep at this
      rw [(stageVel_spheres hp.vel hi).1] at this
      rw [h2]
      exact this
  · rcases hsch with h | ⟨h, -⟩ <;> rw [hs] at h <;> cases h

example (V : ℝ → Vec3) (k : ℕ) (sch : Scheme) (h : sch = .euler ∨ (sch = .ab2 ∧ k = 0)) :
    ∃ s s', s.posdata.P.Ns = 1 ∧ s.error = false ∧
      ((loneSettings sch 9).scheme = .euler ∨ ((loneSettings sch 9).scheme = .ab2 ∧ 0 + k = 0)) ∧
      generate_frame (loneWorld V ![1, 0, 0] 0 0 0) (loneSettings sch 9) 0 0 (0 + k) s = some s' := by
  obtain ⟨s, s', h1, h2, h4, h3, -⟩ := lone_frame (V := V) (U := ![1, 0, 0]) (O := 0) (ctr := 0) (E := 0)
    (loneSettings_ok (sch := sch) (by rintro rfl; simp at h) 9) (loneSettings_save _ _) loneStart_isLone k
  exact ⟨s, s', h4.Ns, h2, by simpa [loneSettings] using h, h3⟩

/-- **C27** (Euler, dumbbells). In an open domain an Euler frame moves each bead of every dumbbell by its velocity
times the time step. -/
theorem C27_euler_dumbbells {f : ℕ} {s s' : State} (hsch : S.scheme = .euler)
    (hbox : ∀ k, bl k - tr k = 0) (he : s.error = false) (hf : generate_frame W S bl tr f s = some s') :
    ∃ st, generate_output_FTSUOE W S s.posdata f s'.cache false
        (if f = 0 ∨ f = S.start then Vel.blank else s.lastVel) = some st ∧
      ∀ i < s.posdata.P.Nd, ∀ sg : ℝ, sg = -1 ∨ sg = 1 → ∀ k,
        beadPos s'.posdata.P sg i k = beadPos s.posdata.P sg i k
          + S.timestep * beadVel st (st.out.Ea.headD 0) sg i (beadPos s.posdata.P sg i) k := by
  obtain ⟨hn, r, h1, h2, -, h3, -⟩ := frame_some he hf
  rcases timeStep_cases h1 with ⟨-, h⟩ | ⟨hs, -⟩
  · obtain ⟨st, v0, v, hp⟩ := euler_parts h
    refine ⟨st, ?_, fun i hi sg hsg k => ?_⟩
    · rw [h3, hp.cache_eq]; exact output_pin hp.stage
    · have hd : 0 < s.posdata.P.Nd := by omega
      have hv : v.Ub = v0.Ub ∧ v.HalfDUb = v0.HalfDUb := by
        rw [hp.flat]; split_ifs <;> exact ⟨rfl, rfl⟩
      obtain ⟨-, e1, -, e2⟩ := hp.dumbs hd
      rw [wrapIf_nonperiodic (by unfold isPeriodic; exact not_not.mpr hbox)] at e2
      rw [← (stageVel_beads hp.vel hd i).2 sg hsg k, h2]
      unfold beadPos
      rw [e1, e2, hv.1, hv.2]
      unfold euler_timestep
      ring
  · rw [hs] at hsch; cases hsch

example (F D : Vec3) (f : ℕ) : ∃ s', generate_frame (dumbWorld F D ![1, 0, 0] ![0, 0, 1] 0 0)
    (dumbSettings .euler true) 0 0 f (State.fresh dumbStart) = some s' := by
  obtain ⟨s', h, -⟩ := dumb_frame (F := F) (D := D) (U := ![1, 0, 0]) (O := ![0, 0, 1]) (ctr := 0) (E := 0)
    (s := State.fresh dumbStart) (dumbSettings_ok (.inl rfl) true) dumbStart_isDumb rfl f
  exact ⟨s', h⟩

/-- **C27** (Adams-Bashforth). In an Adams-Bashforth run every frame after the first moves every sphere by the
time step times 3/2 of its velocity minus 1/2 of its velocity in the frame before. -/
theorem C27_ab2 {f : ℕ} {s s1 s2 : State} (hsch : S.scheme = .ab2) (hst : S.start ≤ f)
    (h2d : S.fully_2d_problem = false) (he : s.error = false) (he1 : s1.error = false)
    (hf : generate_frame W S bl tr f s = some s1) (hf1 : generate_frame W S bl tr (f + 1) s1 = some s2) :
    ∃ st st1, generate_output_FTSUOE W S s.posdata f s1.cache false
        (if f = 0 ∨ f = S.start then Vel.blank else s.lastVel) = some st ∧
      generate_output_FTSUOE W S s1.posdata (f + 1 : ℕ) s2.cache false s1.lastVel = some st1 ∧
      ∀ i < s1.posdata.P.Ns, Wrapped bl tr st1
        (fun k => s1.posdata.P.spherePos i k + S.timestep *
          (3 / 2 * sphereVel st1 i (s1.posdata.P.spherePos i) k - 1 / 2 * sphereVel st i (s.posdata.P.spherePos i) k))
        (s2.posdata.P.spherePos i) := by
  obtain ⟨hn, r, h1, h2, -, h3, h4, -⟩ := frame_some he hf
  obtain ⟨-, r1, g1, g2, -, g3, -⟩ := frame_some he1 hf1
  have hsz := timeStep_sizes h1
  rcases timeStep_cases h1 with ⟨-, h⟩ | ⟨hs, -⟩
  · rcases timeStep_cases g1 with ⟨-, g⟩ | ⟨hs, -⟩
    · obtain ⟨st, v0, v, hp⟩ := euler_parts h
      obtain ⟨st1, w0, w, hq⟩ := euler_parts g
      have hl : velIn S (f + 1) s1 = s1.lastVel := by
        unfold velIn; rw [if_neg (by omega)]
      refine ⟨st, st1, ?_, ?_, fun i hi => ?_⟩
      · rw [h3, hp.cache_eq]; exact output_pin hp.stage
      · have := output_pin hq.stage
        rw [hl] at this
        rw [g3, hq.cache_eq]
        exact this
      · have hv : v = v0 := by rw [hp.flat, h2d]; rfl
        have hw : w = w0 := by rw [hq.flat, h2d]; rfl
        obtain ⟨new, rots, e1, -, e2, -⟩ := hq.spheres (by omega)
        rw [if_neg (by rw [hsch]; simp; omega), hl, h4, hp.vel_eq, hv, hw] at e1
        have := wrapIf_wrapped e2 i
        rw [e1] at this
        unfold ab2_timestep at this
        rw [(stageVel_spheres hq.vel hi).1, (stageVel_spheres hp.vel (by rw [h2, hsz.1] at hi; exact hi)).1] at this
        rw [g2]
        convert this using 3
        norm_num
    · rw [hs] at hsch; cases hsch
  · rw [hs] at hsch; cases hsch

theorem lone_two (V : ℝ → Vec3) (U O ctr : Vec3) (E : Mat3) (sch : Scheme) (h : sch ≠ .other) (k : ℕ) :
    ∃ s s1 s2, s.error = false ∧ s1.error = false ∧ IsLone s.posdata ∧ IsLone s1.posdata ∧
      generate_frame (loneWorld V U O ctr E) (loneSettings sch 9) 0 0 k s = some s1 ∧
      generate_frame (loneWorld V U O ctr E) (loneSettings sch 9) 0 0 (k + 1) s1 = some s2 := by
  obtain ⟨s1, s2, h1, h2, h3, h4, -⟩ := lone_frame (V := V) (U := U) (O := O) (ctr := ctr) (E := E)
    (loneSettings_ok h 9) (loneSettings_save _ _) loneStart_isLone (k + 1)
  obtain ⟨s, s1', g1, g2, g3, g4, -⟩ := lone_frame (V := V) (U := U) (O := O) (ctr := ctr) (E := E)
    (loneSettings_ok h 9) (loneSettings_save _ _) loneStart_isLone k
  rw [run_succ, g1, Option.bind_some, g4] at h1
  obtain rfl := Option.some.inj h1
  simp only [loneSettings, Nat.zero_add] at g4 h4
  exact ⟨s, s1', s2, g2, h2, g3, h3, g4, h4⟩

example (V : ℝ → Vec3) (k : ℕ) : ∃ s s1 s2, s.error = false ∧ s1.error = false ∧ s1.posdata.P.Ns = 1 ∧
    generate_frame (loneWorld V 0 0 0 0) (loneSettings .ab2 9) 0 0 k s = some s1 ∧
    generate_frame (loneWorld V 0 0 0 0) (loneSettings .ab2 9) 0 0 (k + 1) s1 = some s2 := by
  obtain ⟨s, s1, s2, a, b, -, c, d, e⟩ := lone_two V 0 0 0 0 .ab2 (by decide) k
  exact ⟨s, s1, s2, a, b, c.Ns, d, e⟩

/-- An Adams-Bashforth run with dumbbells stops in its first frame. -/
theorem C27_ab2_dumbbells {f : ℕ} {s : State} (hsch : S.scheme = .ab2) (hd : 0 < s.posdata.P.Nd)
    (he : s.error = false) : generate_frame W S bl tr f s = none := by
  rcases hf : generate_frame W S bl tr f s with _ | s'
  · rfl
  obtain ⟨hn, r, h1, -⟩ := frame_some he hf
  rcases timeStep_cases h1 with ⟨-, h⟩ | ⟨hs, -⟩
  · obtain ⟨st, v0, v, hp⟩ := euler_parts h
    have := (hp.dumbs hd).1
    rw [hsch] at this; cases this
  · rw [hs] at hsch; cases hsch

example : (State.fresh dumbStart).error = false ∧ 0 < (State.fresh dumbStart).posdata.P.Nd :=
  ⟨rfl, by simp [State.fresh, dumbStart]⟩

/-- **C27** (Runge-Kutta). In an open domain a Runge-Kutta frame solves at its start, twice half a frame
on and once a whole frame on, at the configurations reached with the velocities of the stage before, and moves
every sphere by the mean of the four velocities with weights 1, 2, 2, 1. The inner stages find the inverse
again only if the frame is a refresh frame and the settings ask for it in each stage. In all four the background
flow is taken at the position at the start of the frame. -/
theorem C27_rk4 {f : ℕ} {s s' : State} (hsch : S.scheme = .rk4) (h2d : S.fully_2d_problem = false)
    (hbox : ∀ k, bl k - tr k = 0) (he : s.error = false) (hf : generate_frame W S bl tr f s = some s') :
    let lv := if f = 0 ∨ f = S.start then Vel.blank else s.lastVel
    let x := s.posdata.P.spherePos
    let again : Bool := decide (S.invert_m_every ∣ f ∨ f = S.start) && S.rk4_each_stage
    ∃ (st : Fin 4 → Stage) (c1 c2 c3 : Config),
      generate_output_FTSUOE W S s.posdata f s'.cache false lv = some (st 0) ∧
      generate_output_FTSUOE W S c1 (f + 1 / 2) s'.cache again lv = some (st 1) ∧
      generate_output_FTSUOE W S c2 (f + 1 / 2) s'.cache again lv = some (st 2) ∧
      generate_output_FTSUOE W S c3 (f + 1) s'.cache again lv = some (st 3) ∧
      ∀ i < s.posdata.P.Ns, ∀ k,
        c1.P.spherePos i k = x i k + S.timestep / 2 * sphereVel (st 0) i (x i) k ∧
        c2.P.spherePos i k = x i k + S.timestep / 2 * sphereVel (st 1) i (x i) k ∧
        c3.P.spherePos i k = x i k + S.timestep * sphereVel (st 2) i (x i) k ∧
        s'.posdata.P.spherePos i k = x i k + S.timestep * ((sphereVel (st 0) i (x i) k
          + 2 * sphereVel (st 1) i (x i) k + 2 * sphereVel (st 2) i (x i) k + sphereVel (st 3) i (x i) k) / 6) := by
  intro lv x again
  obtain ⟨hn, r, h1, h2, -, h3, -⟩ := frame_some he hf
  have hnp : ¬ isPeriodic bl tr := by unfold isPeriodic; exact not_not.mpr hbox
  rcases timeStep_cases h1 with ⟨hs, -⟩ | ⟨-, h⟩
  · rcases hs with h | h <;> rw [hsch] at h <;> cases h
  · obtain ⟨st, v, c1, c2, c3, e1, e2, e3, hp⟩ := rk4_parts h
    have half : (0.5 : ℝ) = 1 / 2 := by norm_num
    have hag : again = (regen S f && S.rk4_each_stage) := by
      show (decide (S.invert_m_every ∣ f ∨ f = S.start) && S.rk4_each_stage) = _
      congr 1
      rw [Bool.eq_iff_iff, regen_iff]; simp
    refine ⟨st, c1, c2, c3, ?_, ?_, ?_, ?_, fun i hi k => ?_⟩
    · rw [h3, hp.cache_eq]; exact output_pin hp.stage1
    · rw [← half, h3, hp.cache_eq, hag]; exact hp.stage2
    · rw [← half, h3, hp.cache_eq, hag]; exact hp.stage3
    · rw [h3, hp.cache_eq, hag]; exact hp.stage4
    · have hpos : 0 < s.posdata.P.Ns := by omega
      have m1 := ((move_parts hp.move1).spheres hpos).1
      have m2 := ((move_parts hp.move2).spheres hpos).1
      have m3 := ((move_parts hp.move3).spheres hpos).1
      have m4 := (hp.spheres hpos).1
      rw [wrapIf_nonperiodic hnp] at m1 m2 m3 m4
      rw [h2, m1, m2, m3, m4, hp.vel_eq, h2d]
      unfold euler_timestep
      simp only [Bool.false_eq_true, if_false]
      unfold blend
      rw [(stageVel_spheres hp.vel1 hi).1, (stageVel_spheres hp.vel2 hi).1, (stageVel_spheres hp.vel3 hi).1,
        (stageVel_spheres hp.vel4 hi).1]
      refine ⟨rfl, rfl, rfl, ?_⟩
      ring

example (V : ℝ → Vec3) (E : Mat3) (k : ℕ) : ∃ s s1, s.error = false ∧ s.posdata.P.Ns = 1 ∧
    generate_frame (loneWorld V 0 0 0 E) (loneSettings .rk4 9) 0 0 k s = some s1 := by
  obtain ⟨s, s1, s2, a, -, c, -, d, -⟩ := lone_two V 0 0 0 E .rk4 (by decide) k
  exact ⟨s, s1, a, c.Ns, d⟩

theorem rk4_sizes {f : ℕ} {c : Config} {lv : Vel} {cache : NDMat} {reg : Bool} {r : StepResult}
    {st : Fin 4 → Stage} {v : Fin 4 → Vel} {c1 c2 c3 : Config} {e1 e2 e3 : Bool}
    (hp : Rk4Parts W S bl tr f c lv cache reg r st v c1 c2 c3 e1 e2 e3) :
    c1.P.Ns = c.P.Ns ∧ c2.P.Ns = c.P.Ns ∧ c3.P.Ns = c.P.Ns :=
  ⟨(move_parts hp.move1).sizes.1, (move_parts hp.move2).sizes.1, (move_parts hp.move3).sizes.1⟩

/-- **C27** (Runge-Kutta, dumbbells). The same for the beads of the dumbbells, except that the second stage
uses the strain of the first. -/
theorem C27_rk4_dumbbells {f : ℕ} {s s' : State} (hsch : S.scheme = .rk4)
    (hbox : ∀ k, bl k - tr k = 0) (he : s.error = false) (hf : generate_frame W S bl tr f s = some s') :
    let lv := if f = 0 ∨ f = S.start then Vel.blank else s.lastVel
    let again : Bool := decide (S.invert_m_every ∣ f ∨ f = S.start) && S.rk4_each_stage
    ∃ (st : Fin 4 → Stage) (c1 c2 c3 : Config),
      generate_output_FTSUOE W S s.posdata f s'.cache false lv = some (st 0) ∧
      generate_output_FTSUOE W S c1 (f + 1 / 2) s'.cache again lv = some (st 1) ∧
      generate_output_FTSUOE W S c2 (f + 1 / 2) s'.cache again lv = some (st 2) ∧
      generate_output_FTSUOE W S c3 (f + 1) s'.cache again lv = some (st 3) ∧
      (c1.P.Ns = s.posdata.P.Ns ∧ c2.P.Ns = s.posdata.P.Ns ∧ c3.P.Ns = s.posdata.P.Ns) ∧
      ∀ i < s.posdata.P.Nd, ∀ sg : ℝ, sg = -1 ∨ sg = 1 → ∀ k,
        let b := beadPos s.posdata.P sg i
        let u0 := beadVel (st 0) ((st 0).out.Ea.headD 0) sg i b k
        let u1 := beadVel (st 1) ((st 0).out.Ea.headD 0) sg i b k
        let u2 := beadVel (st 2) ((st 2).out.Ea.headD 0) sg i b k
        let u3 := beadVel (st 3) ((st 3).out.Ea.headD 0) sg i b k
        beadPos c1.P sg i k = b k + S.timestep / 2 * u0 ∧
        beadPos c2.P sg i k = b k + S.timestep / 2 * u1 ∧
        beadPos c3.P sg i k = b k + S.timestep * u2 ∧
        beadPos s'.posdata.P sg i k = b k + S.timestep * ((u0 + 2 * u1 + 2 * u2 + u3) / 6) := by
  intro lv again
  obtain ⟨hn, r, h1, h2, -, h3, -⟩ := frame_some he hf
  have hnp : ¬ isPeriodic bl tr := by unfold isPeriodic; exact not_not.mpr hbox
  rcases timeStep_cases h1 with ⟨hs, -⟩ | ⟨-, h⟩
  · rcases hs with h | h <;> rw [hsch] at h <;> cases h
  · obtain ⟨st, v, c1, c2, c3, e1, e2, e3, hp⟩ := rk4_parts h
    have half : (0.5 : ℝ) = 1 / 2 := by norm_num
    have hag : again = (regen S f && S.rk4_each_stage) := by
      show (decide (S.invert_m_every ∣ f ∨ f = S.start) && S.rk4_each_stage) = _
      congr 1
      rw [Bool.eq_iff_iff, regen_iff]; simp
    refine ⟨st, c1, c2, c3, ?_, ?_, ?_, ?_, rk4_sizes hp, fun i hi sg hsg k => ?_⟩
    · rw [h3, hp.cache_eq]; exact output_pin hp.stage1
    · rw [← half, h3, hp.cache_eq, hag]; exact hp.stage2
    · rw [← half, h3, hp.cache_eq, hag]; exact hp.stage3
    · rw [h3, hp.cache_eq, hag]; exact hp.stage4
    · have hpos : 0 < s.posdata.P.Nd := by omega
      intro b u0 u1 u2 u3
      obtain ⟨d1, -, m1⟩ := (move_parts hp.move1).dumbs hpos
      obtain ⟨d2, -, m2⟩ := (move_parts hp.move2).dumbs hpos
      obtain ⟨d3, -, m3⟩ := (move_parts hp.move3).dumbs hpos
      obtain ⟨d4, -, m4⟩ := hp.dumbs hpos
      rw [wrapIf_nonperiodic hnp] at m1 m2 m3 m4
      have w0 : u0 = _ := ((stageVel_beads hp.vel1 hpos i).2 sg hsg k).symm
      have w1 : u1 = _ := ((stageVel_beads hp.vel2 hpos i).2 sg hsg k).symm
      have w2 : u2 = _ := ((stageVel_beads hp.vel3 hpos i).2 sg hsg k).symm
      have w3 : u3 = _ := ((stageVel_beads hp.vel4 hpos i).2 sg hsg k).symm
      rw [w0, w1, w2, w3, h2]
      show beadPos c1.P sg i k = beadPos s.posdata.P sg i k + _ ∧ beadPos c2.P sg i k = beadPos s.posdata.P sg i k + _ ∧
        beadPos c3.P sg i k = beadPos s.posdata.P sg i k + _ ∧ beadPos r.new.P sg i k = beadPos s.posdata.P sg i k + _
      unfold beadPos
      rw [m1, m2, m3, m4, d1, d2, d3, d4, hp.vel_eq]
      unfold euler_timestep
      dsimp only
      unfold blend
      refine ⟨?_, ?_, ?_, ?_⟩ <;> ring

example (F D : Vec3) (f : ℕ) : ∃ s', generate_frame (dumbWorld F D ![1, 0, 0] ![0, 0, 1] 0 0)
    (dumbSettings .rk4 true) 0 0 f (State.fresh dumbStart) = some s' := by
  obtain ⟨s', h, -⟩ := dumb_frame (F := F) (D := D) (U := ![1, 0, 0]) (O := ![0, 0, 1]) (ctr := 0) (E := 0)
    (s := State.fresh dumbStart) (dumbSettings_ok (.inr rfl) true) dumbStart_isDumb rfl f
  exact ⟨s', h⟩

/-- The velocities of the spheres at the positions of `P` depend on the time only: they are `V t`. -/
def TimeOnly (W : World) (S : Settings) (P : PosData) (V : ℝ → ℕ → Vec3) : Prop :=
  ∀ c t C reg lv st, c.P.Ns = P.Ns → generate_output_FTSUOE W S c t C reg lv = some st →
    ∀ i < P.Ns, ∀ k, sphereVel st i (P.spherePos i) k = V t i k

/-- **C27** (Simpson). For velocities that depend on time only, the Runge-Kutta frame is Simpson's rule. -/
theorem C27_rk4_simpson {f : ℕ} {s s' : State} {V : ℝ → ℕ → Vec3} (hsch : S.scheme = .rk4)
    (h2d : S.fully_2d_problem = false) (hbox : ∀ k, bl k - tr k = 0) (he : s.error = false)
    (hf : generate_frame W S bl tr f s = some s') (hV : TimeOnly W S s.posdata.P V) :
    ∀ i < s.posdata.P.Ns, ∀ k, s'.posdata.P.spherePos i k = s.posdata.P.spherePos i k
      + S.timestep * ((V f i k + 4 * V (f + 1 / 2) i k + V (f + 1) i k) / 6) := by
  intro i hi k
  obtain ⟨hn, r, h1, h2, -, h3, -⟩ := frame_some he hf
  have hnp : ¬ isPeriodic bl tr := by unfold isPeriodic; exact not_not.mpr hbox
  rcases timeStep_cases h1 with ⟨hs, -⟩ | ⟨-, h⟩
  · rcases hs with h | h <;> rw [hsch] at h <;> cases h
  · obtain ⟨st, v, c1, c2, c3, e1, e2, e3, hp⟩ := rk4_parts h
    obtain ⟨z1, z2, z3⟩ := rk4_sizes hp
    have m4 := (hp.spheres (by omega)).1
    have half : (0.5 : ℝ) = 1 / 2 := by norm_num
    rw [wrapIf_nonperiodic hnp] at m4
    rw [h2, m4, hp.vel_eq, h2d]
    unfold euler_timestep
    simp only [Bool.false_eq_true, if_false]
    unfold blend
    rw [(stageVel_spheres hp.vel1 hi).1, (stageVel_spheres hp.vel2 hi).1, (stageVel_spheres hp.vel3 hi).1,
      (stageVel_spheres hp.vel4 hi).1, hV _ _ _ _ _ _ rfl hp.stage1 i hi k, hV _ _ _ _ _ _ z1 hp.stage2 i hi k,
      hV _ _ _ _ _ _ z2 hp.stage3 i hi k, hV _ _ _ _ _ _ z3 hp.stage4 i hi k, half]
    ring

theorem integral_cubic (a b a0 a1 a2 a3 : ℝ) : ∫ t in a..b, (a0 + a1 * t + a2 * t ^ 2 + a3 * t ^ 3)
    = a0 * (b - a) + a1 * (b ^ 2 - a ^ 2) / 2 + a2 * (b ^ 3 - a ^ 3) / 3 + a3 * (b ^ 4 - a ^ 4) / 4 := by
  have i0 : IntervalIntegrable (fun _ : ℝ => a0) MeasureTheory.volume a b := intervalIntegrable_const
  have i1 : IntervalIntegrable (fun t : ℝ => a1 * t) MeasureTheory.volume a b :=
    (continuous_const.mul continuous_id).intervalIntegrable a b
  have i2 : IntervalIntegrable (fun t : ℝ => a2 * t ^ 2) MeasureTheory.volume a b :=
    (continuous_const.mul (continuous_pow 2)).intervalIntegrable a b
  have i3 : IntervalIntegrable (fun t : ℝ => a3 * t ^ 3) MeasureTheory.volume a b :=
    (continuous_const.mul (continuous_pow 3)).intervalIntegrable a b
  rw [intervalIntegral.integral_add ((i0.add i1).add i2) i3, intervalIntegral.integral_add (i0.add i1) i2,
    intervalIntegral.integral_add i0 i1, intervalIntegral.integral_const, intervalIntegral.integral_const_mul,
    intervalIntegral.integral_const_mul, intervalIntegral.integral_const_mul, integral_id, integral_pow,
    integral_pow]
  simp only [smul_eq_mul]
  push_cast
  ring

/-- **C27** (exactness of Runge-Kutta). For velocities that are cubic polynomials of time, the displacement in a
Runge-Kutta frame is the exact time integral. -/
theorem C27_rk4_cubic {f : ℕ} {s s' : State} {V : ℝ → ℕ → Vec3} {a0 a1 a2 a3 : ℕ → Vec3}
    (hsch : S.scheme = .rk4)
    (h2d : S.fully_2d_problem = false) (hbox : ∀ k, bl k - tr k = 0) (he : s.error = false)
    (hf : generate_frame W S bl tr f s = some s') (hV : TimeOnly W S s.posdata.P V)
    (hp : ∀ t i k, V t i k = a0 i k + a1 i k * t + a2 i k * t ^ 2 + a3 i k * t ^ 3) :
    ∀ i < s.posdata.P.Ns, ∀ k, s'.posdata.P.spherePos i k = s.posdata.P.spherePos i k
      + S.timestep * ∫ t in (f : ℝ)..(f + 1), V t i k := by
  intro i hi k
  rw [C27_rk4_simpson hsch h2d hbox he hf hV i hi k]
  simp only [hp]
  rw [integral_cubic]
  ring

/-- **C27** (exactness of Adams-Bashforth). For velocities that are linear in time, the displacement in an
Adams-Bashforth frame after the first is the exact time integral. -/
theorem C27_ab2_linear {f : ℕ} {s s1 s2 : State} {V : ℝ → ℕ → Vec3} {a0 a1 : ℕ → Vec3}
    (hsch : S.scheme = .ab2) (hst : S.start ≤ f)
    (h2d : S.fully_2d_problem = false) (hbox : ∀ k, bl k - tr k = 0) (he : s.error = false)
    (he1 : s1.error = false)
    (hf : generate_frame W S bl tr f s = some s1) (hf1 : generate_frame W S bl tr (f + 1) s1 = some s2)
    (hV : TimeOnly W S s.posdata.P V) (hV1 : TimeOnly W S s1.posdata.P V)
    (hp : ∀ t i k, V t i k = a0 i k + a1 i k * t) :
    ∀ i < s1.posdata.P.Ns, ∀ k, s2.posdata.P.spherePos i k = s1.posdata.P.spherePos i k
      + S.timestep * ∫ t in (f + 1 : ℝ)..(f + 2), V t i k := by
  intro i hi k
  obtain ⟨st, st1, h1, h2, h3⟩ := C27_ab2 hsch hst h2d he he1 hf hf1
  have hN : s1.posdata.P.Ns = s.posdata.P.Ns := by
    obtain ⟨-, r, g1, g2, -⟩ := frame_some he hf
    rw [g2]; exact (timeStep_sizes g1).1
  have key := congrFun ((h3 i hi).1 hbox) k
  rw [key]
  rw [hV1 _ _ _ _ _ _ rfl h2 i hi k, hV _ _ _ _ _ _ rfl h1 i (by omega) k]
  have e : ∀ t, V t i k = a0 i k + a1 i k * t + 0 * t ^ 2 + 0 * t ^ 3 := fun t => by rw [hp]; ring
  simp only [e]
  rw [integral_cubic]
  push_cast
  ring

theorem lone_timeOnly (V : ℝ → Vec3) (sch : Scheme) (h : sch ≠ .other) {c : Config} (hc : IsLone c) :
    TimeOnly (loneWorld V 0 0 0 0) (loneSettings sch 9) c.P fun t _ => V t := by
  intro c' t C reg lv st hN hst i hi k
  obtain ⟨h1, h2, h3, h4, h5⟩ := lone_echo (loneSettings_ok h 9) (hN.trans hc.Ns) hst
  obtain rfl : i = 0 := by rw [hc.Ns] at hi; omega
  unfold sphereVel
  rw [h1, h2, h3, h4, h5]
  fin_cases k <;> simp [affineFlow, cross, app, dotp]

/-- A sphere whose prescribed velocity is a cubic polynomial of time. -/
example (k : ℕ) : ∃ s s',
    let V : ℝ → Vec3 := fun t => ![1 + t ^ 3, t ^ 2, 2 * t]
    generate_frame (loneWorld V 0 0 0 0) (loneSettings .rk4 9) 0 0 k s = some s' ∧
    s'.posdata.P.spherePos 0 0 = s.posdata.P.spherePos 0 0 + 1 / 10 * ∫ t in (k : ℝ)..(k + 1), (1 + t ^ 3) := by
  let V : ℝ → Vec3 := fun t => ![1 + t ^ 3, t ^ 2, 2 * t]
  obtain ⟨s, s1, s2, a, -, c, -, d, -⟩ := lone_two V 0 0 0 0 .rk4 (by decide) k
  refine ⟨s, s1, d, ?_⟩
  have := C27_rk4_cubic (a0 := fun _ => ![1, 0, 0]) (a1 := fun _ => ![0, 0, 2]) (a2 := fun _ => ![0, 1, 0])
    (a3 := fun _ => ![1, 0, 0]) rfl rfl (by simp) a d (lone_timeOnly V .rk4 (by decide) c)
    (fun t i k => by fin_cases k <;> simp [V]) 0 (by rw [c.Ns]; omega) 0
  exact this

/-- A sphere whose prescribed velocity is linear in time. -/
example (k : ℕ) : ∃ s1 s2,
    let V : ℝ → Vec3 := fun t => ![1 + 3 * t, 0, 2 * t]
    generate_frame (loneWorld V 0 0 0 0) (loneSettings .ab2 9) 0 0 (k + 1) s1 = some s2 ∧
    s2.posdata.P.spherePos 0 0
      = s1.posdata.P.spherePos 0 0 + 1 / 10 * ∫ t in (k + 1 : ℝ)..(k + 2), (1 + 3 * t) := by
  let V : ℝ → Vec3 := fun t => ![1 + 3 * t, 0, 2 * t]
  obtain ⟨s, s1, s2, a, b, c, c1, d, e⟩ := lone_two V 0 0 0 0 .ab2 (by decide) k
  refine ⟨s1, s2, e, ?_⟩
  have := C27_ab2_linear (a0 := fun _ => ![1, 0, 0]) (a1 := fun _ => ![3, 0, 2]) rfl (Nat.zero_le _) rfl (by simp) a b
    d e (lone_timeOnly V .ab2 (by decide) c) (lone_timeOnly V .ab2 (by decide) c1)
    (fun t i k => by fin_cases k <;> simp [V]) 0 (by rw [c1.Ns]; omega) 0
  exact this

/-- **C27** (steady flow). A consequence of taking the background flow at the start of the frame: where the
velocity of a sphere is a steady function `A` of its position, as for a force-free sphere carried by a steady
linear flow, the Runge-Kutta frame is no better than an Euler frame. -/
theorem C27_rk4_steady_flow {f : ℕ} {s s' : State} {A : ℕ → Vec3 → Vec3} (hsch : S.scheme = .rk4)
    (h2d : S.fully_2d_problem = false) (hbox : ∀ k, bl k - tr k = 0) (he : s.error = false)
    (hf : generate_frame W S bl tr f s = some s')
    (hA : ∀ c t C reg lv st, c.P.Ns = s.posdata.P.Ns → generate_output_FTSUOE W S c t C reg lv = some st →
      ∀ i < s.posdata.P.Ns, ∀ x, sphereVel st i x = A i x) :
    ∀ i < s.posdata.P.Ns, ∀ k, s'.posdata.P.spherePos i k
      = s.posdata.P.spherePos i k + S.timestep * A i (s.posdata.P.spherePos i) k := by
  intro i hi k
  rw [C27_rk4_simpson (V := fun _ i => A i (s.posdata.P.spherePos i)) hsch h2d hbox he hf
    (fun c t C reg lv st hN h i hi k => by rw [hA c t C reg lv st hN h i hi]) i hi k]
  ring

/-- **C27** (not the classical scheme). A force-free sphere in a steady straining flow: the Runge-Kutta
frame differs from the classical Runge-Kutta step for the flow. -/
theorem C27_rk4_not_classical : ∃ (W : World) (S : Settings) (s s' : State) (A : Vec3 → Vec3),
    S.scheme = .rk4 ∧ s.posdata.P.Ns = 1 ∧
    (∀ c t C reg lv st, c.P.Ns = 1 → generate_output_FTSUOE W S c t C reg lv = some st → sphereVel st 0 = A) ∧
    generate_frame W S 0 0 0 s = some s' ∧
    s'.posdata.P.spherePos 0 ≠ classicalRk4 (fun _ => A) 0 S.timestep (s.posdata.P.spherePos 0) := by
  let E : Mat3 := fun i j => if i = j then (![1, -1, 0] : Vec3) i else 0
  have h := lone_frame (V := fun _ => 0) (U := 0) (O := 0) (ctr := fun m => loneStart.P.spherePos 0 m - 1) (E := E)
    (loneSettings_ok (sch := .rk4) (by decide) 9) (loneSettings_save _ _) loneStart_isLone 0
  obtain ⟨s, s', h1, h2, h3, h4, -⟩ := h
  obtain rfl : State.fresh loneStart = s := Option.some.inj h1
  have hA : ∀ c t C reg lv st, c.P.Ns = 1 →
      generate_output_FTSUOE (loneWorld (fun _ => 0) 0 0 (fun m => loneStart.P.spherePos 0 m - 1) E)
        (loneSettings .rk4 9) c t C reg lv = some st →
      sphereVel st 0 = affineFlow 0 0 (fun m => loneStart.P.spherePos 0 m - 1) E := by
    intro c t C reg lv st hN hst
    obtain ⟨g1, g2, g3, g4, g5⟩ := lone_echo (loneSettings_ok (by decide) 9) hN hst
    funext x k
    unfold sphereVel
    rw [g1, g2, g3, g4, g5]
    simp
  refine ⟨_, loneSettings .rk4 9, State.fresh loneStart, s', _, rfl, rfl, hA, h4, fun hcon => ?_⟩
  have e := C27_rk4_steady_flow (A := fun _ => affineFlow 0 0 (fun m => loneStart.P.spherePos 0 m - 1) E) rfl rfl
    (by simp) h2 h4 (fun c t C reg lv st hN hst i hi x => by
      have hi : i < 1 := hi
      obtain rfl : i = 0 := by omega
      exact congrFun (hA c t C reg lv st hN hst) x) 0 (by show 0 < 1; omega) 0
  rw [hcon] at e
  simp [classicalRk4, affineFlow, cross, app, dotp, State.fresh, loneStart, loneP, loneSettings, E] at e
  norm_num at e

/-! ## C29 -/

/-- **C29.** In a two-dimensional run in an open domain no sphere ever leaves its plane, whatever the scheme. -/
theorem C29_fully_2d (h2d : S.fully_2d_problem = true) (hbox : ∀ k, bl k - tr k = 0) {s0 s : State} {n : ℕ}
    (h : runFrames W S bl tr s0 n = some s) (i : ℕ) :
    s.posdata.P.spherePos i 1 = s0.posdata.P.spherePos i 1 := by
  have hnp : ¬ isPeriodic bl tr := by unfold isPeriodic; exact not_not.mpr hbox
  have key : ∀ n s, runFrames W S bl tr s0 n = some s →
      (∀ i, s.posdata.P.spherePos i 1 = s0.posdata.P.spherePos i 1) ∧
      (0 < n → s.error = false → ∀ i, s.lastVel.Ua i 1 = 0) := by
    intro n
    induction n with
    | zero =>
      intro s h
      obtain rfl := Option.some.inj h
      exact ⟨fun _ => rfl, fun h => absurd h (by omega)⟩
    | succ n ih =>
      intro s h
      obtain ⟨s1, h1, h2⟩ := run_prev h
      obtain ⟨a, b⟩ := ih s1 h1
      by_cases he : s1.error = true
      · rw [frame_error he] at h2
        obtain rfl := Option.some.inj h2
        exact ⟨a, fun _ hf => by rw [he] at hf; cases hf⟩
      have he : s1.error = false := by simpa using he
      obtain ⟨hn, r, c1, c2, c3, c4, c5, -⟩ := frame_some he h2
      have hlv : ∀ i, (velIn S (S.start + n) s1).Ua i 1 = 0 := by
        intro i
        unfold velIn
        split_ifs with hz
        · rfl
        · exact b (by omega) he i
      have hz : ∀ u : ℕ → Vec3, ∀ i, zeroY u i 1 = 0 := fun u i => by simp [zeroY]
      rw [c2, c5]
      rcases timeStep_cases c1 with ⟨-, hh⟩ | ⟨-, hh⟩
      · obtain ⟨st, v0, v, hp⟩ := euler_parts hh
        have hv : ∀ i, v.Ua i 1 = 0 := by
          intro i; rw [hp.flat, if_pos h2d]; exact hz v0.Ua i
        refine ⟨fun i => ?_, fun _ _ i => by rw [hp.vel_eq]; exact hv i⟩
        rw [← a i]
        rcases Nat.eq_zero_or_pos s1.posdata.P.Ns with h0 | h0
        · rw [(hp.noSpheres h0).1]
        · obtain ⟨new, rots, e1, -, e2, -⟩ := hp.spheres h0
          rw [wrapIf_nonperiodic hnp] at e2
          rw [e2, e1]
          split_ifs
          · unfold euler_timestep; rw [hv]; ring
          · unfold ab2_timestep; rw [hv, hlv]; ring
      · obtain ⟨st, v, c1, c2, c3, e1, e2, e3, hp⟩ := rk4_parts hh
        have hv : ∀ i, r.lastVel.Ua i 1 = 0 := by
          intro i; rw [hp.vel_eq]; dsimp only; rw [if_pos h2d]; exact hz (blend _ _ _ _) i
        refine ⟨fun i => ?_, fun _ _ i => hv i⟩
        rw [← a i]
        rcases Nat.eq_zero_or_pos s1.posdata.P.Ns with h0 | h0
        · rw [(hp.noSpheres h0).1]
        · have e2 := (hp.spheres h0).1
          rw [wrapIf_nonperiodic hnp] at e2
          rw [e2]
          unfold euler_timestep; rw [hv]; ring
  exact (key n s h).1 i

/-- A sphere whose prescribed velocity has a component along the second axis. -/
example (sch : Scheme) (h : sch ≠ .other) (n : ℕ) : ∃ s,
    runFrames (loneWorld (fun _ => ![1, 1, 1]) 0 0 0 0) { loneSettings sch 9 with fully_2d_problem := true } 0 0
      (State.fresh loneStart) n = some s ∧ s.posdata.P.spherePos 0 1 = loneP.spherePos 0 1 := by
  have hS : LoneSettings { loneSettings sch 9 with fully_2d_problem := true } :=
    ⟨rfl, rfl, rfl, rfl, by simp [loneSettings], h, by simp [loneSettings]⟩
  have hs : SaveSettings { loneSettings sch 9 with fully_2d_problem := true } :=
    ⟨rfl, rfl, by simp [loneSettings], by simp [loneSettings], by simp [loneSettings]⟩
  obtain ⟨s, h1, -⟩ := lone_run (V := fun _ => ![1, 1, 1]) (U := 0) (O := 0) (ctr := 0) (E := 0) hS hs
    loneStart_isLone n
  refine ⟨s, h1, ?_⟩
  rw [C29_fully_2d rfl (by simp) h1 0]
  rfl

/-- **C29** (limit of the option). It does not hold dumbbells in their plane. -/
theorem C29_not_dumbbells : ∃ (W : World) (S : Settings) (s s' : State), S.fully_2d_problem = true ∧
    generate_frame W S 0 0 0 s = some s' ∧ s'.posdata.P.dumbPos 0 1 ≠ s.posdata.P.dumbPos 0 1 := by
  have hS : DumbSettings { dumbSettings .euler true with fully_2d_problem := true } :=
    ⟨rfl, rfl, rfl, rfl, .inl rfl, by simp [dumbSettings], rfl, rfl⟩
  obtain ⟨s', h, -⟩ := dumb_frame (F := ![0, 1, 0]) (D := 0) (U := 0) (O := 0) (ctr := 0) (E := 0)
    (s := State.fresh dumbStart) hS dumbStart_isDumb rfl 0
  refine ⟨_, _, State.fresh dumbStart, s', rfl, h, ?_⟩
  obtain ⟨hn, r, h1, h2, -⟩ := frame_some rfl h
  rcases timeStep_cases h1 with ⟨-, h⟩ | ⟨hs, -⟩
  · obtain ⟨st, v0, v, hp⟩ := euler_parts h
    obtain ⟨st', g1, g2, g3, g4, g5, g6, g7⟩ := dumb_stage (F := ![0, 1, 0]) (D := 0) (U := 0) (O := 0) (ctr := 0)
      (E := 0) hS dumbStart_isDumb (0 : ℕ) (cacheIn { dumbSettings .euler true with fully_2d_problem := true } 0
        (State.fresh dumbStart)) (regen { dumbSettings .euler true with fully_2d_problem := true } 0)
      (velIn { dumbSettings .euler true with fully_2d_problem := true } 0 (State.fresh dumbStart))
    obtain rfl : st = st' := Option.some.inj (hp.stage.symm.trans g1)
    obtain ⟨-, -, -, e2⟩ := hp.dumbs (by simp [State.fresh, dumbStart])
    rw [wrapIf_nonperiodic not_periodic_zero] at e2
    rw [h2, e2]
    have hv : v.Ub 0 1 = 1 := by
      have hb := stageVel_beads hp.vel (by simp [State.fresh, dumbStart]) 0
      have b1 := hb.2 1 (.inr rfl) 1
      have b2 := hb.2 (-1) (.inl rfl) 1
      unfold beadVel at b1 b2
      rw [g2, g3, g4, g5, g6, g7] at b1 b2
      simp [affineFlow, cross, app, dotp] at b1 b2
      have : v.Ub = v0.Ub := by rw [hp.flat]; split_ifs <;> rfl
      rw [this]
      linarith
    unfold euler_timestep
    rw [hv]
    simp [dumbSettings]
  · cases hs

/-! ## C34 -/

/-- **C34** (the test). The flag is raised exactly if it was raised before or, with protection on, some dumbbell is
longer than 5. -/
theorem C34_flag (error : Bool) (n : ℕ) (dx : ℕ → Vec3) (protect : Bool) :
    did_something_go_wrong_with_dumbells error n dx protect = true
      ↔ error = true ∨ (protect = true ∧ ∃ i < n, 5 < len (dx i)) := by
  unfold did_something_go_wrong_with_dumbells
  induction n with
  | zero => simp
  | succ n ih =>
    rw [List.range_succ, List.foldl_append, List.foldl_cons, List.foldl_nil, norm3_eq_len]
    by_cases h : protect = true ∧ len (dx n) > 5
    · rw [if_pos h]
      simp only [true_iff]
      exact .inr ⟨h.1, n, by omega, h.2⟩
    · rw [if_neg h, ih]
      constructor
      · rintro (h1 | ⟨h1, i, hi, h2⟩)
        · exact .inl h1
        · exact .inr ⟨h1, i, by omega, h2⟩
      · rintro (h1 | ⟨h1, i, hi, h2⟩)
        · exact .inl h1
        · refine .inr ⟨h1, i, ?_, h2⟩
          by_contra hc
          obtain rfl : i = n := by omega
          exact h ⟨h1, h2⟩

theorem did_noDumbs (e : Bool) (dx : ℕ → Vec3) (p : Bool) : did_something_go_wrong_with_dumbells e 0 dx p = e := rfl

/-- **C34** (a frame raises the flag). With protection on, a frame after which some dumbbell is longer than 5 ends
with the flag raised. -/
theorem C34_raised {f : ℕ} {s s' : State} (hpr : S.explosion_protection = true) (he : s.error = false)
    (hf : generate_frame W S bl tr f s = some s')
    (hlong : ∃ i < s'.posdata.P.Nd, 5 < len (s'.posdata.P.dumbDx i)) : s'.error = true := by
  obtain ⟨hn, r, h1, h2, h3, -⟩ := frame_some he hf
  obtain ⟨i, hi, hl⟩ := hlong
  rw [h2] at hi hl
  rw [h3]
  rcases timeStep_cases h1 with ⟨-, h⟩ | ⟨-, h⟩
  · obtain ⟨st, v0, v, hp⟩ := euler_parts h
    have hsz := hp.sizes.2.1
    rw [(hp.dumbs (by omega)).2.2.1, C34_flag]
    exact .inr ⟨hpr, i, by omega, hl⟩
  · obtain ⟨st, v, c1, c2, c3, e1, e2, e3, hp⟩ := rk4_parts h
    have hsz := hp.sizes.2.1
    rw [(hp.dumbs (by omega)).2.1, C34_flag]
    exact .inr ⟨hpr, i, by omega, hl⟩

/-- **C34** (Euler frames). In an Euler or Adams-Bashforth frame the flag is raised only by a dumbbell that is
longer than 5 after the frame. -/
theorem C34_euler_iff {f : ℕ} {s s' : State} (hsch : S.scheme = .euler ∨ S.scheme = .ab2) (he : s.error = false)
    (hf : generate_frame W S bl tr f s = some s') :
    s'.error = true ↔ S.explosion_protection = true ∧
      ∃ i < s'.posdata.P.Nd, 5 < len (s'.posdata.P.dumbDx i) := by
  obtain ⟨hn, r, h1, h2, h3, -⟩ := frame_some he hf
  rw [h2, h3]
  rcases timeStep_cases h1 with ⟨-, h⟩ | ⟨hs, -⟩
  · obtain ⟨st, v0, v, hp⟩ := euler_parts h
    have hsz := hp.sizes.2.1
    rcases Nat.eq_zero_or_pos s.posdata.P.Nd with h0 | h0
    · rw [(hp.noDumbs h0).2.2]
      constructor
      · intro h; cases h
      · rintro ⟨-, i, hi, -⟩; omega
    · rw [(hp.dumbs h0).2.2.1, C34_flag, hsz]
      simp
  · rcases hsch with h | h <;> rw [hs] at h <;> cases h

/-- **C34** (no false alarm). With protection off, or without dumbbells, no frame raises the flag. -/
theorem C34_off {f : ℕ} {s s' : State} (hoff : S.explosion_protection = false ∨ s.posdata.P.Nd = 0)
    (he : s.error = false) (hf : generate_frame W S bl tr f s = some s') : s'.error = false := by
  obtain ⟨hn, r, h1, h2, h3, -⟩ := frame_some he hf
  rw [h3]
  have hd : ∀ e n dx, n = s.posdata.P.Nd → e = false →
      did_something_go_wrong_with_dumbells e n dx S.explosion_protection = false := by
    intro e n dx hn he
    rcases hb : did_something_go_wrong_with_dumbells e n dx S.explosion_protection with _ | _
    · rfl
    · rw [C34_flag] at hb
      rcases hb with h | ⟨h, i, hi, -⟩
      · rw [he] at h; cases h
      · rcases hoff with ho | ho
        · rw [ho] at h; cases h
        · omega
  have hmove : ∀ {c c' : Config} {st : Stage} {v : Vel} {dt : ℝ} {e e' : Bool}, c.P.Nd = s.posdata.P.Nd →
      rk4Move S bl tr c st v dt e = some (c', e') → e = false → e' = false := by
    intro c c' st v dt e e' hc hm he
    have := move_parts hm
    rcases Nat.eq_zero_or_pos c.P.Nd with h0 | h0
    · rw [(this.noDumbs h0).2.2, he]
    · rw [(this.dumbs h0).2.1]
      exact hd _ _ _ hc he
  rcases timeStep_cases h1 with ⟨-, h⟩ | ⟨-, h⟩
  · obtain ⟨st, v0, v, hp⟩ := euler_parts h
    rcases Nat.eq_zero_or_pos s.posdata.P.Nd with h0 | h0
    · exact (hp.noDumbs h0).2.2
    · rw [(hp.dumbs h0).2.2.1]; exact hd _ _ _ rfl rfl
  · obtain ⟨st, v, c1, c2, c3, e1, e2, e3, hp⟩ := rk4_parts h
    have z1 := hmove rfl hp.move1 rfl
    have z2 := hmove rfl hp.move2 z1
    have z3 := hmove rfl hp.move3 z2
    rcases Nat.eq_zero_or_pos s.posdata.P.Nd with h0 | h0
    · rw [(hp.noDumbs h0).2.2, z3]
    · rw [(hp.dumbs h0).2.1]; exact hd _ _ _ rfl z3

/-- **C34** (Runge-Kutta frames). In a Runge-Kutta frame the flag is raised exactly by a dumbbell that is longer
than 5 after the frame or at one of the three inner stages. -/
theorem C34_rk4_iff {f : ℕ} {s s' : State} (hsch : S.scheme = .rk4) (he : s.error = false)
    (hf : generate_frame W S bl tr f s = some s') :
    ∃ r st v c1 c2 c3 e1 e2 e3,
      Rk4Parts W S bl tr f s.posdata (velIn S f s) (cacheIn S f s) (regen S f) r st v c1 c2 c3 e1 e2 e3 ∧
      r.new = s'.posdata ∧
      (s'.error = true ↔ S.explosion_protection = true ∧ ∃ c ∈ [c1, c2, c3, s'.posdata],
        ∃ i < c.P.Nd, 5 < len (c.P.dumbDx i)) := by
  obtain ⟨hn, r, h1, h2, h3, -⟩ := frame_some he hf
  rcases timeStep_cases h1 with ⟨hs, -⟩ | ⟨-, h⟩
  · rcases hs with h | h <;> rw [hsch] at h <;> cases h
  obtain ⟨st, v, c1, c2, c3, e1, e2, e3, hp⟩ := rk4_parts h
  refine ⟨r, st, v, c1, c2, c3, e1, e2, e3, hp, h2.symm, ?_⟩
  have hmove : ∀ {c c' : Config} {st : Stage} {v : Vel} {dt : ℝ} {e e' : Bool},
      rk4Move S bl tr c st v dt e = some (c', e') →
      (e' = true ↔ e = true ∨ (S.explosion_protection = true ∧ ∃ i < c'.P.Nd, 5 < len (c'.P.dumbDx i))) := by
    intro c c' st v dt e e' hm
    have := move_parts hm
    rcases Nat.eq_zero_or_pos c.P.Nd with h0 | h0
    · rw [(this.noDumbs h0).2.2, this.sizes.2.1, h0]; simp
    · rw [(this.dumbs h0).2.1, C34_flag, this.sizes.2.1]
  have z1 := hmove hp.move1
  have z2 := hmove hp.move2
  have z3 := hmove hp.move3
  have z4 : s'.error = true ↔ e3 = true ∨ (S.explosion_protection = true ∧
      ∃ i < s'.posdata.P.Nd, 5 < len (s'.posdata.P.dumbDx i)) := by
    rw [h2, h3]
    rcases Nat.eq_zero_or_pos s.posdata.P.Nd with h0 | h0
    · rw [(hp.noDumbs h0).2.2, hp.sizes.2.1, h0]; simp
    · rw [(hp.dumbs h0).2.1, C34_flag, hp.sizes.2.1]
  rw [z4, z3, z2, z1]
  simp only [List.mem_cons, List.not_mem_nil, or_false, Bool.false_eq_true, false_or]
  constructor
  · rintro (((⟨a, h⟩ | ⟨a, h⟩) | ⟨a, h⟩) | ⟨a, h⟩)
    · exact ⟨a, c1, .inl rfl, h⟩
    · exact ⟨a, c2, .inr (.inl rfl), h⟩
    · exact ⟨a, c3, .inr (.inr (.inl rfl)), h⟩
    · exact ⟨a, _, .inr (.inr (.inr rfl)), h⟩
  · rintro ⟨a, c, rfl | rfl | rfl | rfl, h⟩
    · exact .inl (.inl (.inl ⟨a, h⟩))
    · exact .inl (.inl (.inr ⟨a, h⟩))
    · exact .inl (.inr ⟨a, h⟩)
    · exact .inr ⟨a, h⟩

/-- **C34** (latch). Once the flag is raised, the rest of the run changes nothing: positions, saved data, backup
file, flag. -/
theorem C34_latch {s0 s : State} {k j : ℕ} (h : runFrames W S bl tr s0 k = some s) (he : s.error = true) :
    runFrames W S bl tr s0 (k + j) = some s := run_error h he

/-- A dumbbell of length 4 pulled apart to length 6 in the first frame of a run: the flag is raised, and the state
after the first frame is that after any number of frames. -/
example (j : ℕ) : ∃ s, runFrames (dumbWorld 0 ![10, 0, 0] 0 0 0 0) (dumbSettings .euler true) 0 0
      (State.fresh dumbStart) (1 + j) = some s ∧ s.error = true ∧ 5 < len (s.posdata.P.dumbDx 0) := by
  have hS := dumbSettings_ok (sch := .euler) (.inl rfl) true
  obtain ⟨s', h, hd⟩ := dumb_frame (F := 0) (D := ![10, 0, 0]) (U := 0) (O := 0) (ctr := 0) (E := 0)
    (s := State.fresh dumbStart) hS dumbStart_isDumb rfl 0
  have hl : 5 < len (s'.posdata.P.dumbDx 0) := by
    obtain ⟨st, g1, g2⟩ := C27_euler_dumbbells rfl (by simp) rfl h
    obtain ⟨e1, e2, e3, e4, e5, e6⟩ := (dumb_stage (F := 0) (D := ![10, 0, 0]) (U := 0) (O := 0) (ctr := 0) (E := 0)
      hS dumbStart_isDumb (0 : ℕ) s'.cache false Vel.blank).choose_spec.2
    have hst : (dumb_stage (F := 0) (D := ![10, 0, 0]) (U := 0) (O := 0) (ctr := 0) (E := 0)
      hS dumbStart_isDumb (0 : ℕ) s'.cache false Vel.blank).choose = st := by
      refine Option.some.inj (((dumb_stage hS dumbStart_isDumb (0 : ℕ) s'.cache false Vel.blank).choose_spec.1).symm.trans ?_)
      exact g1
    rw [hst] at e1 e2 e3 e4 e5 e6
    have b1 := g2 0 (by simp [State.fresh, dumbStart]) 1 (.inr rfl) 0
    have b2 := g2 0 (by simp [State.fresh, dumbStart]) (-1) (.inl rfl) 0
    unfold beadVel at b1 b2
    rw [e1, e2, e3, e4, e5, e6] at b1 b2
    simp [beadPos, affineFlow, cross, app, dotp, dumbSettings, State.fresh, dumbStart] at b1 b2
    have hx : s'.posdata.P.dumbDx 0 0 = 6 := by linarith
    unfold len
    rw [Fin.sum_univ_three, hx]
    apply Real.lt_sqrt_of_sq_lt
    nlinarith [sq_nonneg (s'.posdata.P.dumbDx 0 1), sq_nonneg (s'.posdata.P.dumbDx 0 2)]
  have he := C34_raised rfl rfl h ⟨0, by rw [hd.Nd]; omega, hl⟩
  refine ⟨s', C34_latch ?_ he, he, hl⟩
  rw [run_succ]
  exact h

example (D : Vec3) (sch : Scheme) (h : sch = .euler ∨ sch = .rk4) (f : ℕ) : ∃ s',
    generate_frame (dumbWorld 0 D 0 0 0 0) (dumbSettings sch false) 0 0 f (State.fresh dumbStart) = some s' ∧
    s'.error = false := by
  obtain ⟨s', h1, -⟩ := dumb_frame (F := 0) (D := D) (U := 0) (O := 0) (ctr := 0) (E := 0)
    (s := State.fresh dumbStart) (dumbSettings_ok h false) dumbStart_isDumb rfl f
  exact ⟨s', h1, C34_off (.inl rfl) rfl h1⟩

end SD
