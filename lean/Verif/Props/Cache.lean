import Verif.Lemmas.Frame
import Verif.Lemmas.LoneRun
import Verif.Spec.Run

/-!
# C26: the cached far-field inverse
-/

set_option autoImplicit false

namespace SD

open Spec

variable {W : World} {S : Settings} {bl tr : Vec3}

/-- `C` is the inverse of the far-field mobility matrix of the particles `P`, with the viscosity and the
box of the inputs `u`. -/
def FarInverse (W : World) (S : Settings) (P : PosData) (u : UserInput) (C : NDMat) : Prop :=
  ((∀ k, u.bl k - u.tr k = 0) → (generate_Minfinity P u.mu S.bead_bead_interactions).inv = some C) ∧
  ((¬ ∀ k, u.bl k - u.tr k = 0) → (W.Minfinity_periodic P u.bl u.tr u.mu u.Ot u.Et).inv = some C)

theorem stageResistance_cache {c : Config} {last R C : NDMat} {reg : Bool} {u : UserInput}
    (hd : S.use_drag_Minfinity = false) (h : stageResistance W S c last reg u = some (R, C)) :
    (reg = true → FarInverse W S c.P u C) ∧ (reg = false → C = last) := by
  unfold stageResistance at h
  by_cases hp : isPeriodic u.bl u.tr
  · rw [if_pos hp] at h
    by_cases hE : u.inp.Ea = []
    · rw [if_pos hE] at h; exact absurd h (by simp)
    rw [if_neg hE] at h
    unfold generate_grand_resistance_matrix_periodic at h
    rw [if_pos hd] at h
    obtain ⟨C', h1, h⟩ := Option.bind_eq_some_iff.mp h
    have hC : C' = C := by
      by_cases ho : S.use_Minfinity_only = false
      · rw [if_pos ho] at h
        obtain ⟨_, -, h⟩ := Option.bind_eq_some_iff.mp h
        simp only [Option.some.injEq, Prod.mk.injEq] at h
        exact h.2
      · rw [if_neg ho] at h
        simp only [Option.some.injEq, Prod.mk.injEq] at h
        exact h.2
    subst hC
    constructor
    · rintro rfl
      rw [if_pos rfl] at h1
      exact ⟨fun h0 => absurd h0 hp, fun _ => h1⟩
    · rintro rfl
      rw [if_neg (by simp)] at h1
      exact (Option.some.inj h1).symm
  · rw [if_neg hp] at h
    unfold generate_grand_resistance_matrix at h
    rw [if_pos hd] at h
    obtain ⟨C', h1, h⟩ := Option.bind_eq_some_iff.mp h
    have hC : C' = C := by
      by_cases ho : S.use_Minfinity_only = false
      · rw [if_pos ho] at h
        obtain ⟨_, -, h⟩ := Option.bind_eq_some_iff.mp h
        simp only [Option.some.injEq, Prod.mk.injEq] at h
        exact h.2
      · rw [if_neg ho] at h
        simp only [Option.some.injEq, Prod.mk.injEq] at h
        exact h.2
    subst hC
    constructor
    · rintro rfl
      rw [if_pos rfl] at h1
      exact ⟨fun _ => h1, fun h0 => absurd h0 hp⟩
    · rintro rfl
      rw [if_neg (by simp)] at h1
      exact (Option.some.inj h1).symm

/-- Handing in the inverse that was found gives the same matrices. -/
theorem stageResistance_pin {c : Config} {last R C : NDMat} {reg : Bool} {u : UserInput}
    (h : stageResistance W S c last reg u = some (R, C)) : stageResistance W S c C false u = some (R, C) := by
  have key : ∀ (A : Option NDMat) (B : Option NDMat) (f : NDMat → NDMat → NDMat),
      (A.bind fun Mi => if S.use_Minfinity_only = false then B.bind fun X => some (f Mi X, Mi) else some (Mi, Mi))
        = some (R, C) →
      ((some C : Option NDMat).bind fun Mi => if S.use_Minfinity_only = false then
        B.bind fun X => some (f Mi X, Mi) else some (Mi, Mi)) = some (R, C) ∧ A = some C := by
    intro A B f h
    obtain ⟨C', h1, h2⟩ := Option.bind_eq_some_iff.mp h
    have hC : C' = C := by
      by_cases ho : S.use_Minfinity_only = false
      · rw [if_pos ho] at h2
        obtain ⟨_, -, h2⟩ := Option.bind_eq_some_iff.mp h2
        simp only [Option.some.injEq, Prod.mk.injEq] at h2
        exact h2.2
      · rw [if_neg ho] at h2
        simp only [Option.some.injEq, Prod.mk.injEq] at h2
        exact h2.2
    subst hC
    exact ⟨by rw [Option.bind_some]; exact h2, h1⟩
  unfold stageResistance at h ⊢
  by_cases hp : isPeriodic u.bl u.tr
  · rw [if_pos hp] at h ⊢
    by_cases hE : u.inp.Ea = []
    · rw [if_pos hE] at h; exact absurd h (by simp)
    rw [if_neg hE] at h ⊢
    unfold generate_grand_resistance_matrix_periodic at h ⊢
    by_cases hd : S.use_drag_Minfinity = false
    · rw [if_pos hd] at h ⊢
      rw [if_neg (by simp)]
      exact (key _ _ (fun Mi X => Mi.add X) h).1
    · rw [if_neg hd] at h
      exact absurd h (by simp)
  · rw [if_neg hp] at h ⊢
    unfold generate_grand_resistance_matrix at h ⊢
    by_cases hd : S.use_drag_Minfinity = false
    · rw [if_pos hd] at h ⊢
      rw [if_neg (by simp)]
      exact (key _ _ (fun Mi X => X.add Mi) h).1
    · rw [if_neg hd] at h ⊢
      exact h

theorem output_pin {c : Config} {t : ℝ} {last : NDMat} {reg : Bool} {lv : Vel} {st : Stage}
    (h : generate_output_FTSUOE W S c t last reg lv = some st) :
    generate_output_FTSUOE W S c t st.cache false lv = some st := by
  obtain ⟨u, R, u2, h1, h2, h3, h4, h5, h6⟩ := output_some h
  unfold generate_output_FTSUOE
  rw [h1]
  simp only [Option.bind_eq_bind, Option.bind_some]
  rw [stageResistance_pin h2]
  simp only [Option.bind_some]
  obtain ⟨a, b, c1, d, e⟩ := h6
  by_cases hf : S.input_form = .fte
  · rw [if_pos hf]
    obtain ⟨R', h7, h8⟩ := h4 hf
    rw [h7, Option.bind_some, h8, Option.bind_some, h5, Option.bind_some, ← a, ← b, ← c1, ← d, ← e]
  · rw [if_neg hf, Option.bind_some, ← h3 hf, h5, Option.bind_some, ← a, ← b, ← c1, ← d, ← e]

/-- The first stage of a step. -/
theorem step_stage1 {f : ℕ} {c : Config} {lv : Vel} {cache : NDMat} {reg : Bool} {r : StepResult}
    (h : timeStep W S bl tr f c lv cache reg = some r) :
    ∃ st, generate_output_FTSUOE W S c f cache reg lv = some st ∧ r.cache = st.cache := by
  rcases timeStep_cases h with ⟨-, h⟩ | ⟨-, h⟩
  · obtain ⟨st, _, _, hp⟩ := euler_parts h
    exact ⟨st, hp.stage, hp.cache_eq⟩
  · obtain ⟨st, _, _, _, _, _, _, _, hp⟩ := rk4_parts h
    exact ⟨st 0, hp.stage1, hp.cache_eq⟩

theorem regen_iff {f : ℕ} : regen S f = true ↔ S.invert_m_every ∣ f ∨ f = S.start := by
  unfold regen
  simp [Nat.dvd_iff_mod_eq_zero]

/-- **C26** (schedule). In every frame of every run, the far-field inverse that is kept is that of the
configuration at the start of the latest refresh frame, found with the inputs of that frame, and of no
Runge-Kutta stage. -/
theorem C26_schedule (hd : S.use_drag_Minfinity = false) {s0 s s' : State} {k : ℕ}
    (h : runFrames W S bl tr s0 k = some s) (he : s.error = false)
    (hf : generate_frame W S bl tr (S.start + k) s = some s') :
    ∃ g sg u, LatestRefresh S.invert_m_every S.start (S.start + k) g ∧
      runFrames W S bl tr s0 (g - S.start) = some sg ∧
      W.input_ftsuoe sg.posdata g S.timestep (if g = 0 ∨ g = S.start then Vel.blank else sg.lastVel) none
        = some u ∧
      FarInverse W S sg.posdata.P u s'.cache := by
  induction k generalizing s s' with
  | zero =>
    obtain ⟨hn, r, h1, -, -, h2, -⟩ := frame_some he hf
    obtain ⟨st, h3, h4⟩ := step_stage1 h1
    obtain ⟨u, R, u2, h5, h6, -⟩ := output_some h3
    have hr : regen S (S.start + 0) = true := regen_iff.mpr (.inr rfl)
    refine ⟨S.start + 0, s, u, ⟨le_rfl, le_rfl, .inr rfl, fun h a b => by omega⟩, by simpa using h, h5, ?_⟩
    rw [h2, h4]
    exact (stageResistance_cache hd h6).1 hr
  | succ k ih =>
    obtain ⟨hn, r, h1, -, -, h2, -⟩ := frame_some he hf
    obtain ⟨st, h3, h4⟩ := step_stage1 h1
    obtain ⟨u, R, u2, h5, h6, -⟩ := output_some h3
    by_cases hr : regen S (S.start + (k + 1)) = true
    · refine ⟨S.start + (k + 1), s, u, ⟨by omega, le_rfl, regen_iff.mp hr, fun h a b => by omega⟩,
        by rw [Nat.add_sub_cancel_left]; exact h, h5, ?_⟩
      rw [h2, h4]
      exact (stageResistance_cache hd h6).1 hr
    · have hr' : regen S (S.start + (k + 1)) = false := by simpa using hr
      obtain ⟨s1, h7, h8⟩ := run_prev h
      have he1 : s1.error = false := by
        obtain ⟨s1', h9, h10⟩ := run_earlier (Nat.le_succ k) h
        obtain rfl : s1 = s1' := Option.some.inj (h7.symm.trans h9)
        exact h10 he
      obtain ⟨g, sg, u', ⟨a, b, c, d⟩, h9, h10, h11⟩ := ih h7 he1 h8
      have hc : s'.cache = s.cache := by
        rw [h2, h4, (stageResistance_cache hd h6).2 hr']
        unfold cacheIn
        rw [if_neg hr]
      refine ⟨g, sg, u', ⟨a, by omega, c, fun x hx hx' => ?_⟩, h9, h10, by rw [hc]; exact h11⟩
      by_cases e : x = S.start + (k + 1)
      · subst e
        exact fun hdv => hr (regen_iff.mpr (.inl hdv))
      · exact d x hx (by omega)

/-- Seven frames after a refresh interval of three: the latest refresh is frame 6. -/
example : LatestRefresh 3 0 7 6 :=
  ⟨by omega, by omega, .inl (by decide), fun h a b => by obtain rfl : h = 7 := by omega
                                                         decide⟩

/-- The hypotheses hold in every frame of the runs of a lone sphere. -/
example (sch : Scheme) (h : sch ≠ .other) (N k : ℕ) (V : ℝ → Vec3) : ∃ s s' g sg,
    runFrames (loneWorld V 0 0 0 0) (loneSettings sch N) 0 0 (State.fresh loneStart) k = some s ∧
    generate_frame (loneWorld V 0 0 0 0) (loneSettings sch N) 0 0 k s = some s' ∧
    LatestRefresh 3 0 k g ∧
    runFrames (loneWorld V 0 0 0 0) (loneSettings sch N) 0 0 (State.fresh loneStart) g = some sg ∧
    (generate_Minfinity sg.posdata.P 1 true).inv = some s'.cache := by
  obtain ⟨s, s', h1, h2, -, h3, -⟩ := lone_frame (V := V) (U := 0) (O := 0) (ctr := 0) (E := 0)
    (loneSettings_ok h N) (loneSettings_save sch N) loneStart_isLone k
  obtain ⟨g, sg, u, a, b, c, d⟩ := C26_schedule rfl h1 h2 h3
  simp only [loneSettings, Nat.zero_add] at a h3
  obtain rfl : loneUser _ _ _ _ _ = u := Option.some.inj c
  exact ⟨s, s', g, sg, h1, h3, a, b, d.1 (by simp [loneUser])⟩

/-- **C26** (refresh every frame). With the interval 1, the inverse is always that of the current
configuration. -/
theorem C26_every_frame (hd : S.use_drag_Minfinity = false) (h1 : S.invert_m_every = 1) {s0 s s' : State}
    {k : ℕ} (h : runFrames W S bl tr s0 k = some s) (he : s.error = false)
    (hf : generate_frame W S bl tr (S.start + k) s = some s') :
    ∃ lv u, W.input_ftsuoe s.posdata (S.start + k : ℕ) S.timestep lv none = some u ∧
      FarInverse W S s.posdata.P u s'.cache := by
  obtain ⟨g, sg, u, ⟨a, b, c, d⟩, h2, h3, h4⟩ := C26_schedule hd h he hf
  obtain rfl : g = S.start + k := by
    by_contra hne
    exact d (S.start + k) (by omega) le_rfl (by rw [h1]; exact one_dvd _)
  rw [Nat.add_sub_cancel_left, h] at h2
  obtain rfl := Option.some.inj h2
  exact ⟨_, u, h3, h4⟩

example (V : ℝ → Vec3) (k : ℕ) : ∃ s s',
    let S := { loneSettings .rk4 9 with invert_m_every := 1 }
    runFrames (loneWorld V 0 0 0 0) S 0 0 (State.fresh loneStart) k = some s ∧
    generate_frame (loneWorld V 0 0 0 0) S 0 0 k s = some s' ∧
    (generate_Minfinity s.posdata.P 1 true).inv = some s'.cache := by
  have hS : LoneSettings { loneSettings .rk4 9 with invert_m_every := 1 } :=
    ⟨rfl, rfl, rfl, rfl, by simp [loneSettings], by simp [loneSettings], by simp⟩
  have hs : SaveSettings { loneSettings .rk4 9 with invert_m_every := 1 } :=
    ⟨rfl, rfl, by simp [loneSettings], by simp [loneSettings], by simp [loneSettings]⟩
  obtain ⟨s, s', h1, h2, -, h3, -⟩ := lone_frame (V := V) (U := 0) (O := 0) (ctr := 0) (E := 0) hS hs
    loneStart_isLone k
  obtain ⟨lv, u, a, b⟩ := C26_every_frame rfl rfl h1 h2 h3
  obtain rfl : loneUser _ _ _ _ _ = u := Option.some.inj a
  refine ⟨s, s', h1, ?_, b.1 (by simp [loneUser])⟩
  simpa [loneSettings] using h3

/-- **C26** (a refresh is a refresh). A stage that is told to find the inverse again uses the inverse for the
configuration of that stage. -/
theorem C26_refresh (hd : S.use_drag_Minfinity = false) {c : Config} {t : ℝ} {last : NDMat} {lv : Vel}
    {st : Stage} (h : generate_output_FTSUOE W S c t last true lv = some st) :
    ∃ u, W.input_ftsuoe c t S.timestep lv none = some u ∧ FarInverse W S c.P u st.cache := by
  obtain ⟨u, R, u2, h1, h2, -⟩ := output_some h
  exact ⟨u, h1, (stageResistance_cache hd h2).1 rfl⟩

example : ∃ st, generate_output_FTSUOE (loneWorld (fun _ => 0) 0 0 0 0) (loneSettings .rk4 9) loneStart 0
    (NDMat.zeros 1 1) true Vel.blank = some st := by
  obtain ⟨st, h, -⟩ := lone_stage (V := fun _ => 0) (U := 0) (O := 0) (ctr := 0) (E := 0) (t := 0)
    (last := NDMat.zeros 1 1) (reg := true) (lv := Vel.blank) (loneSettings_ok (sch := .rk4) (by decide) 9)
    loneStart_isLone (by simp)
  exact ⟨st, h⟩

/-- **C26** (first stage). The first stage of the frame is solved with exactly the inverse that is kept: being
handed this inverse, and told to find no other, it gives the same result. -/
theorem C26_first_stage {f : ℕ} {s s' : State} (he : s.error = false)
    (hf : generate_frame W S bl tr f s = some s') :
    let lv := if f = 0 ∨ f = S.start then Vel.blank else s.lastVel
    let due : Bool := decide (S.invert_m_every ∣ f ∨ f = S.start)
    ∃ st, generate_output_FTSUOE W S s.posdata f (if due then NDMat.zeros 1 1 else s.cache) due lv = some st ∧
      generate_output_FTSUOE W S s.posdata f s'.cache false lv = some st := by
  obtain ⟨hn, r, h1, -, -, h2, -⟩ := frame_some he hf
  obtain ⟨st, h3, h4⟩ := step_stage1 h1
  have e : regen S f = decide (S.invert_m_every ∣ f ∨ f = S.start) := by
    rw [Bool.eq_iff_iff, regen_iff]; simp
  refine ⟨st, ?_, ?_⟩
  · unfold cacheIn at h3
    rw [e] at h3
    exact h3
  · rw [h2, h4]
    exact output_pin h3

example (V : ℝ → Vec3) (k : ℕ) : ∃ s s', s.error = false ∧
    generate_frame (loneWorld V 0 0 0 0) (loneSettings .ab2 9) 0 0 (0 + k) s = some s' := by
  obtain ⟨s, s', h1, h2, -, h3, -⟩ := lone_frame (V := V) (U := 0) (O := 0) (ctr := 0) (E := 0)
    (loneSettings_ok (sch := .ab2) (by decide) 9) (loneSettings_save _ _) loneStart_isLone k
  exact ⟨s, s', h2, h3⟩

theorem euler_pin {f : ℕ} {c : Config} {lv : Vel} {cache : NDMat} {reg : Bool} {r : StepResult}
    (h : stepEulerAb2 W S bl tr f c lv cache reg = some r) :
    stepEulerAb2 W S bl tr f c lv r.cache false = some r := by
  obtain ⟨st, v0, v, hp⟩ := euler_parts h
  rw [← h]
  unfold stepEulerAb2
  rw [hp.stage, hp.cache_eq, output_pin hp.stage]

theorem rk4_pin {f : ℕ} {c : Config} {lv : Vel} {cache : NDMat} {reg : Bool} {r : StepResult}
    (hr : reg = true → S.rk4_each_stage = false)
    (h : stepRk4 W S bl tr f c lv cache reg = some r) :
    stepRk4 W S bl tr f c lv r.cache false = some r := by
  obtain ⟨st, v, c1, c2, c3, e1, e2, e3, hp⟩ := rk4_parts h
  have : (reg && S.rk4_each_stage) = false := by
    cases reg
    · rfl
    · rw [hr rfl]; rfl
  rw [← h]
  unfold stepRk4
  rw [hp.stage1, hp.cache_eq, output_pin hp.stage1, this]
  rfl

/-- **C26** (whole frame). Unless it is a refresh frame of a Runge-Kutta run that asks for a new inverse in every
stage, the whole step is made with the inverse that is kept. -/
theorem C26_whole_frame {f : ℕ} {s s' : State} (he : s.error = false)
    (hr : S.scheme = .rk4 → S.rk4_each_stage = true → ¬ (S.invert_m_every ∣ f ∨ f = S.start))
    (hf : generate_frame W S bl tr f s = some s') :
    ∃ r, timeStep W S bl tr f s.posdata (if f = 0 ∨ f = S.start then Vel.blank else s.lastVel) s'.cache false
      = some r ∧ r.new = s'.posdata ∧ r.cache = s'.cache := by
  obtain ⟨hn, r, h1, h2, -, h3, -⟩ := frame_some he hf
  refine ⟨r, ?_, h2.symm, h3.symm⟩
  unfold frameStep at h1
  unfold velIn at h1
  rw [h3]
  rcases timeStep_cases h1 with ⟨hs, h⟩ | ⟨hs, h⟩
  · have := euler_pin h
    unfold timeStep
    rcases hs with hs | hs <;> rw [hs] <;> exact this
  · have := rk4_pin (fun hreg => by
      by_contra hc
      exact hr hs (by simpa using hc) (regen_iff.mp hreg)) h
    unfold timeStep
    rw [hs]
    exact this

/-- The second frame of a Runge-Kutta run that refreshes every third frame. -/
example (V : ℝ → Vec3) : ∃ s s', s.error = false ∧ ¬ ((loneSettings .rk4 9).invert_m_every ∣ 1 ∨
      1 = (loneSettings .rk4 9).start) ∧
    generate_frame (loneWorld V 0 0 0 0) (loneSettings .rk4 9) 0 0 (0 + 1) s = some s' := by
  obtain ⟨s, s', h1, h2, -, h3, -⟩ := lone_frame (V := V) (U := 0) (O := 0) (ctr := 0) (E := 0)
    (loneSettings_ok (sch := .rk4) (by decide) 9) (loneSettings_save _ _) loneStart_isLone 1
  exact ⟨s, s', h2, by simp [loneSettings], h3⟩

end SD
