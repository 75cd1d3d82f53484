import Verif.Lemmas.ShippedInputs
import Verif.Props.Moved

/-!
# C66: the project's own inputs, number by number

For every input number and form of input, whether a simulation can be run with it.
-/

set_option autoImplicit false

namespace SD

open Spec Ship

variable {n : ℕ} {form : InputForm} {W : World} {S : Settings}

/-- **C66** (complete). Whatever the configuration (for input 3 no dumbbell has length zero, and input 6 is for
99 spheres), an answer exists and is complete exactly for the numbers and forms of the table, except that
dumbbells without spheres are also complete for other inputs. -/
theorem C66_complete {P : PosData} (hf : formAllowed form P.Ns) (hN : 0 < P.Ns + P.Nd)
    (h3 : n = 3 → ∀ i < P.Nd, P.dumbDx i ≠ 0) (h6 : n = 6 → P.Ns = 99) (f dt : ℝ) :
    (∃ u, input_ftsuoe n form P f dt = some u ∧ Complete form P.Ns P.Nd u.inp) ↔
      Works n form (max 1 P.Ns) := by
  have h3' : n = 3 → ∀ i < P.Nd, norm3 (P.dumbDx i) ≠ 0 := fun h i hi => by
    rw [norm3_eq_len]; exact (len_pos (h3 h i hi)).ne'
  have range : ∀ {u : UserInput}, input_ftsuoe n form P f dt = some u → 1 ≤ n ∧ n ≤ 7 := by
    intro u h
    rcases shipped_cases h with ⟨hn, -⟩ | ⟨hn, -⟩ | ⟨hn, -⟩ | ⟨hn, -⟩ | ⟨hn, -⟩ | ⟨hn, -⟩ <;> omega
  cases form with
  | fts =>
    constructor
    · rintro ⟨u, h, -⟩
      exact ⟨(range h).1, (range h).2, by omega⟩
    · rintro ⟨a, b, -⟩
      obtain ⟨u, h⟩ := shipped_exists (form := .fts) (f := f) (dt := dt) ⟨a, b⟩ h3'
        fun _ => ⟨given_rep _ _, given_rep _ _, given_rep _ _⟩
      exact ⟨u, h, complete_fts h⟩
  | fte =>
    constructor
    · rintro ⟨u, h, -⟩
      exact range h
    · rintro hab
      obtain ⟨u, h⟩ := shipped_exists (form := .fte) (f := f) (dt := dt) hab h3'
        fun _ => ⟨given_rep _ _, given_rep _ _, given_rep _ _⟩
      exact ⟨u, h, complete_fte h⟩
  | ufte =>
    have hs : 0 < P.Ns := by
      by_contra h0
      rcases hf.1 (by omega) with h | h <;> exact absurd h (by simp)
    constructor
    · rintro ⟨u, h, hc⟩
      exact (complete_ufte hs h h6).mp hc
    · intro hw
      have hw' : n = 1 ∨ n = 2 ∨ n = 5 ∨ n = 6 := hw
      obtain ⟨u, h⟩ := shipped_exists (form := .ufte) (f := f) (dt := dt) (n := n) (by omega) h3' (by omega)
      exact ⟨u, h, (complete_ufte hs h h6).mpr hw⟩
  | ufteu =>
    have hs : 0 < P.Ns := by
      by_contra h0
      rcases hf.1 (by omega) with h | h <;> exact absurd h (by simp)
    exact iff_of_false (fun ⟨u, h, hc⟩ => complete_ufteu hs h hc) id
  | duf =>
    have hs : 0 < P.Nd := by
      by_contra h0
      exact hf.2 (by omega) rfl
    exact iff_of_false (fun ⟨u, h, hc⟩ => complete_duf hs h hc) id

/-- A frame from a state without error starts with a solved problem. -/
theorem frame_solves {bl tr : Vec3} {f : ℕ} {s s' : State} (he : s.error = false)
    (h : generate_frame W S bl tr f s = some s') :
    ∃ lv cache reg st v, generate_output_FTSUOE W S s.posdata f cache reg lv = some st ∧
      stageVel s.posdata st st.out.Ea = some v := by
  obtain ⟨-, r, hr, -⟩ := frame_some he h
  rcases timeStep_cases hr with ⟨-, h⟩ | ⟨-, h⟩
  · obtain ⟨st, v0, v, p⟩ := euler_parts h
    exact ⟨_, _, _, st, v0, p.stage, p.vel⟩
  · unfold stepRk4 at h
    obtain ⟨s1, a1, h⟩ := Option.bind_eq_some_iff.mp h
    obtain ⟨v1, b1, -⟩ := Option.bind_eq_some_iff.mp h
    exact ⟨_, _, _, s1, v1, a1, b1⟩

/-- **C66** (stops). A number and form that are not in the table end every program with an exception, in the first frame
at the latest: whatever the particles (input 6 is for 99 spheres), the tables, the scheme, the settings and the files
already there. -/
theorem C66_stops (hW : Ships n form W) (hS : S.input_form = form) {s : State} (hf : formAllowed form s.posdata.P.Ns)
    (hN : 0 < s.posdata.P.Ns + s.posdata.P.Nd) (h6 : n = 6 → s.posdata.P.Ns = 99) (he : s.error = false)
    (hk : S.start < S.num_frames) (hno : ¬ Works n form s.posdata.P.Ns) : program W S s = none := by
  rcases hp : program W S s with _ | out
  · rfl
  exfalso
  obtain ⟨u0, -, hp⟩ := Option.bind_eq_some_iff.mp hp
  obtain ⟨s', hr, -⟩ := Option.bind_eq_some_iff.mp hp
  obtain ⟨s1, h1, -⟩ := run_earlier (j := 1) (by omega) hr
  obtain ⟨s0, h0, h1⟩ := run_prev h1
  obtain rfl := Option.some.inj h0
  obtain ⟨lv, cache, reg, st, v, hst, hv⟩ := frame_solves he h1
  obtain ⟨u, R, u2, hu, -, e1, e2, hsol, -⟩ := output_some hst
  obtain ⟨r, hu2⟩ : ∃ r, W.input_ftsuoe s.posdata ((S.start + 0 : ℕ) : ℝ) S.timestep lv r = some u2 := by
    by_cases hfte : S.input_form = .fte
    · obtain ⟨R', -, h⟩ := e2 hfte
      exact ⟨_, h⟩
    · rw [e1 hfte]
      exact ⟨_, hu⟩
  rw [hW] at hu2
  have hsz := shipped_sized hu2 h6
  have hcomp := C10_placeholders hsz hsol
  rw [hS] at hcomp
  have h3 : n = 3 → ∀ i < s.posdata.P.Nd, s.posdata.P.dumbDx i ≠ 0 := by
    intro hn i hi h0
    rcases shipped_cases hu2 with ⟨h, -⟩ | ⟨-, h, -⟩ | ⟨h, -⟩ | ⟨h, -⟩ | ⟨h, -⟩ | ⟨h, -⟩
    · omega
    · exact h i hi (by rw [h0]; simp [norm3])
    all_goals omega
  have hw := (C66_complete hf hN h3 h6 _ _).mp ⟨u2, hu2, hcomp⟩
  cases form with
  | fts =>
    by_cases hz : s.posdata.P.Ns = 0
    · apply hno
      refine ⟨hw.1, hw.2.1, fun _ => ?_⟩
      by_contra hn
      have hE : u2.inp.Ea = [] := by
        rcases shipped_cases hu2 with ⟨h, e⟩ | ⟨h, -⟩ | ⟨h, -, -, -, A, B, C, e⟩ | ⟨h, e⟩ | ⟨h, e⟩ | ⟨h, -⟩
        · rw [e]; simp [defaultInputs, empty_vectors, hz]
        · omega
        · rw [e]; simp [defaultInputs, empty_vectors, hz]
        · rw [e]; simp [defaultInputs, empty_vectors, hz]
        · rw [e]; simp [defaultInputs, empty_vectors, hz]
        · omega
      have hout : st.out.Ea = [] := by
        rw [hS] at hsol
        simp only [solveForm, solveFTS] at hsol
        obtain ⟨_, -, h⟩ := Option.bind_eq_some_iff.mp hsol
        obtain ⟨_, -, h⟩ := Option.bind_eq_some_iff.mp h
        obtain ⟨_, -, h⟩ := Option.bind_eq_some_iff.mp h
        obtain ⟨_, -, h⟩ := Option.bind_eq_some_iff.mp h
        obtain ⟨_, -, h⟩ := Option.bind_eq_some_iff.mp h
        obtain ⟨_, -, h⟩ := Option.bind_eq_some_iff.mp h
        obtain ⟨_, -, h⟩ := Option.bind_eq_some_iff.mp h
        obtain ⟨E, hE', h⟩ := Option.bind_eq_some_iff.mp h
        rw [if_pos hz, hE] at hE'
        rw [← Option.some.inj h]
        exact (Option.some.inj hE').symm
      unfold stageVel at hv
      rw [if_neg (by omega), if_pos ⟨by omega, hout⟩] at hv
      exact absurd hv (by simp)
    · rw [max_eq_right (by omega)] at hw
      exact hno hw
  | fte => exact hno hw
  | ufte => exact hno hw
  | ufteu => exact hw
  | duf => exact hw

/-- A dumbbell whose beads do not touch has a length. -/
theorem apart_length {P : PosData} (hr : ∀ x < beads P, 0 < radius P x) (h : ¬ Touching P) {i : ℕ} (hi : i < P.Nd) :
    P.dumbDx i ≠ 0 := by
  intro h0
  have e1 : P.Ns + i < beads P := by unfold beads; omega
  have e2 : P.Ns + P.Nd + i < beads P := by unfold beads; omega
  refine h ⟨P.Ns + i, e1, P.Ns + P.Nd + i, e2, by omega, ?_⟩
  have hz : (fun k => centre P (P.Ns + i) k - centre P (P.Ns + P.Nd + i) k) = 0 := by
    funext k
    unfold centre
    rw [if_neg (by omega), if_pos (by omega), if_neg (by omega), if_neg (by omega),
      show P.Ns + i - P.Ns = i by omega, show P.Ns + P.Nd + i - (P.Ns + P.Nd) = i by omega, h0]
    simp
  rw [hz]
  have a1 := hr _ e1
  have a2 := hr _ e2
  have e0 : len (0 : Vec3) = 0 := by simp [len]
  rw [e0]
  positivity

/-- The project's inputs are in order wherever the particles are. -/
theorem shipped_steady (hW : Ships n form W) (hS : S.input_form = form) {c : Config}
    (hr : ∀ x < beads c.P, 1 / 10 ^ 8 < radius c.P x)
    (hl : ∀ x < beads c.P, ∀ y < beads c.P, ∃ t ∈ W.table.lam,
      |t - radius c.P y / radius c.P x| ≤ 1 / 10 ^ 8 + 1 / 10 ^ 5 * |radius c.P y / radius c.P x|)
    (hf : formAllowed form c.P.Ns) (hb : S.bead_bead_interactions = true ∨ c.P.Nd = 0)
    (hN : 0 < c.P.Ns + c.P.Nd) (h2 : n ≠ 2) (h6 : n = 6 → c.P.Ns = 99) (hw : Works n form c.P.Ns) : Steady W S c where
  radii := hr
  ratios := hl
  allowed := by rw [hS]; exact hf
  beads := hb
  answers d hd ht f dt v r := by
    have hpos : ∀ x < beads d.P, 0 < radius d.P x := by
      intro x hx
      rw [(same_beads hd).1] at hx
      rw [(same_beads hd).2]
      exact lt_trans (by norm_num) (hr x hx)
    have hw' : Works n form (max 1 c.P.Ns) := by
      cases form with
      | fts => exact ⟨hw.1, hw.2.1, by omega⟩
      | fte => exact hw
      | ufte => exact hw
      | ufteu => exact hw
      | duf => exact hw
    obtain ⟨u, hu, hc⟩ := (C66_complete (P := d.P) (n := n) (form := form) (by rw [hd.Ns]; exact hf)
      (by rw [hd.Ns, hd.Nd]; exact hN) (fun _ i hi => apart_length hpos ht hi) (by rw [hd.Ns]; exact h6) f dt).mpr
      (by rw [hd.Ns]; exact hw')
    have hsz := shipped_sized hu (by rw [hd.Ns]; exact h6)
    obtain ⟨b1, b2⟩ := shipped_box hu
    rw [hd.Ns, hd.Nd] at hc hsz
    refine ⟨u, by rw [hW]; exact hu, hsz, by rw [hS]; exact hc, by rw [b1]; norm_num, b2.mpr h2, fun h0 _ => ?_⟩
    cases form with
    | fts =>
      rcases shipped_cases hu with ⟨h, -⟩ | ⟨-, -, g, e⟩ | ⟨h, -⟩ | ⟨h, -⟩ | ⟨h, -⟩ | ⟨-, e⟩
      · have := hw.2.2 h0; omega
      · rw [e]; simp
      · have := hw.2.2 h0; omega
      · have := hw.2.2 h0; omega
      · have := hw.2.2 h0; omega
      · rw [e]; simp
    | fte => rcases hf.1 h0 with h | h <;> exact absurd h (by simp)
    | ufte => rcases hf.1 h0 with h | h <;> exact absurd h (by simp)
    | ufteu => exact hw.elim
    | duf => exact hw.elim

/-- **C66** (runs). With a number and form of the table and no periodic box, the program is stopped by an exception only
in a frame in which two beads come closer than 2.001 average radii. -/
theorem C66_runs (hD : TableDissipates W.table) (hW : Ships n form W) (hS : S.input_form = form) {c : Config}
    (hR : Runnable S c.P.Nd) (ha : Arrows c) (hk : 0 < S.num_frames)
    (hr : ∀ x < beads c.P, 1 / 10 ^ 8 < radius c.P x)
    (hl : ∀ x < beads c.P, ∀ y < beads c.P, ∃ t ∈ W.table.lam,
      |t - radius c.P y / radius c.P x| ≤ 1 / 10 ^ 8 + 1 / 10 ^ 5 * |radius c.P y / radius c.P x|)
    (hf : formAllowed form c.P.Ns) (hb : S.bead_bead_interactions = true ∨ c.P.Nd = 0)
    (hN : 0 < c.P.Ns + c.P.Nd) (h2 : n ≠ 2) (h6 : n = 6 → c.P.Ns = 99) (hw : Works n form c.P.Ns)
    (h0 : ¬ Touching c.P) (h : program W S (State.fresh c) = none) :
    ∃ u, W.input_ftsuoe c 0 0.1 Vel.blank none = some u ∧
      ∃ j < S.num_frames, ∃ s, runFrames W S u.bl u.tr (State.fresh c) j = some s ∧ s.error = false ∧
        ∃ d, Visits W S u.bl u.tr j s d ∧ SameSizes c d ∧ Touching d.P :=
  C65_stops hD hR ha hk (shipped_steady hW hS hr hl hf hb hN h2 h6 hw) h0 h

/-! ## The hypotheses can be met -/

/-- The world of input number `n`. -/
noncomputable def shippedWorld (n : ℕ) (form : InputForm) : World :=
  { constWorld (defaultUserInput form starP) with input_ftsuoe := fun c f dt _ _ => input_ftsuoe n form c.P f dt }

theorem shippedWorld_ships (n : ℕ) (form : InputForm) : Ships n form (shippedWorld n form) := fun _ _ _ _ _ => rfl

/-- `N` Runge-Kutta frames with near and far field, in the given form. -/
noncomputable def formSettings (form : InputForm) (N : ℕ) : Settings := { starSettings .rk4 N with input_form := form }

theorem formSettings_ok (form : InputForm) (N Nd : ℕ) : Runnable (formSettings form N) Nd := by
  obtain ⟨a1, a2, a3, a4, a5, a6, a7, a8, a9⟩ := starSettings_ok (sch := .rk4) (Nd := Nd) N (.inr (.inr rfl))
  exact ⟨a1, a2, a3, a4, a5, a6, a7, a8, a9⟩

/-- A sphere between two dumbbells cannot be simulated with prescribed dumbbell velocities, for any input number
but 6. -/
example (n N : ℕ) (hN : 0 < N) (h6 : n ≠ 6) : program (shippedWorld n .ufteu)
    (formSettings .ufteu N) (State.fresh starStart) = none :=
  C66_stops (shippedWorld_ships n .ufteu) rfl ⟨by simp [State.fresh, starStart, starP], by simp⟩
    (by simp [State.fresh, starStart, starP]) (fun h => absurd h h6) rfl (by simpa [formSettings, starSettings, loneSettings] using hN) id

/-- It can be simulated under gravity, with repulsion or in a shear flow, until beads touch. -/
example (n N : ℕ) (hn : n = 1 ∨ n = 3 ∨ n = 4 ∨ n = 7) (hN : 0 < N)
    (h : program (shippedWorld n .fte) (formSettings .fte N) (State.fresh starStart) = none) :
    ∃ u, (shippedWorld n .fte).input_ftsuoe starStart 0 0.1 Vel.blank none = some u ∧
      ∃ j < N, ∃ s, runFrames (shippedWorld n .fte) (formSettings .fte N) u.bl u.tr
          (State.fresh starStart) j = some s ∧ s.error = false ∧
        ∃ d, Visits (shippedWorld n .fte) (formSettings .fte N) u.bl u.tr j s d ∧
          SameSizes starStart d ∧ Touching d.P := by
  have hst := star_steady 0 0 0 .rk4 N
  exact C66_runs dampT_dissipates (shippedWorld_ships n .fte) rfl (formSettings_ok _ N _) starStart_arrows hN
    hst.radii hst.ratios ⟨by simp [starStart, starP], by simp⟩ (.inl rfl) (by simp [starStart, starP]) (by omega) (by omega)
    (show 1 ≤ n ∧ n ≤ 7 by omega) star_apart h

end SD
