import Verif.Props.FallingPair

/-!
# C93: spheres with prescribed velocities go exactly where they are told
-/

set_option autoImplicit false

namespace SD

open Spec Move Ship

variable {W : World} {S : Settings} {bl tr : Vec3}

/-- What the form `ufte` copies to its output. -/
theorem ufte_copies {e : Bool} {Ns Nd : ℕ} {R : NDMat} {inp : Inputs} {out : Outputs} (hsz : Sized Ns Nd inp)
    (h : solveUFTE e Ns Nd R inp = some out) :
    floatsL (inp.Ua.take (Ns - countPippa inp.Ua)) = some (out.Ua.take (Ns - countPippa inp.Ua)) ∧
    floatsL (inp.Fa.drop (Ns - countPippa inp.Ua)) = some (out.Fa.drop (Ns - countPippa inp.Ua)) ∧
    floatsL inp.Ta = some out.Ta ∧ inp.Ea.mapM floats33 = some out.Ea ∧ floatsL inp.Fb = some out.Fb ∧
    floatsL inp.DFb = some out.DFb := by
  unfold solveUFTE at h
  simp only at h
  set k := Ns - countPippa inp.Ua with hk
  obtain ⟨fv, -, h⟩ := Option.bind_eq_some_iff.mp h
  obtain ⟨R', -, h⟩ := Option.bind_eq_some_iff.mp h
  obtain ⟨R2, -, h⟩ := Option.bind_eq_some_iff.mp h
  cases e
  swap
  · exact absurd h (by simp)
  rw [if_neg (by simp)] at h
  obtain ⟨vv, -, h⟩ := Option.bind_eq_some_iff.mp h
  obtain ⟨Fr, hFr, h⟩ := Option.bind_eq_some_iff.mp h
  obtain ⟨Uf, hUf, h⟩ := Option.bind_eq_some_iff.mp h
  obtain ⟨Ta, hTa, h⟩ := Option.bind_eq_some_iff.mp h
  obtain ⟨Ea, hEa, h⟩ := Option.bind_eq_some_iff.mp h
  obtain ⟨Fb, hFb, h⟩ := Option.bind_eq_some_iff.mp h
  obtain ⟨DFb, hDFb, h⟩ := Option.bind_eq_some_iff.mp h
  obtain rfl := Option.some.inj h
  rw [List.take_of_length_le hsz.Fa.le] at hFr
  have lUf : Uf.length = k := by
    rw [mapM_length hUf, List.length_take, hsz.Ua]; omega
  have ld : ((deconstruct_velocity_vector_for_fts Ns Nd vv).u.take k).length = k := by
    rw [List.length_take, dec_u_len]; omega
  refine ⟨?_, ?_, hTa, hEa, hFb, hDFb⟩
  · rw [List.take_left' lUf]; exact hUf
  · rw [List.drop_left' ld]; exact hFr

/-- A frame in which the velocity of sphere `i` does not depend on anything. -/
theorem told_step {w : Vec3} {c : Config} {i : ℕ} (hi : i < c.P.Ns) (h2d : S.fully_2d_problem = false ∨ w 1 = 0)
    (hbox : ∀ k, bl k - tr k = 0)
    (hV : ∀ d t C reg lv st, d.P.Ns = c.P.Ns → d.P.Nd = c.P.Nd → generate_output_FTSUOE W S d t C reg lv = some st →
      ∀ x, sphereVel st i x = w)
    {f : ℕ} {lv : Vel} {last : NDMat} {reg : Bool} {r : StepResult} (hlv : f - S.start = 0 ∨ lv.Ua i = w)
    (hr : timeStep W S bl tr f c lv last reg = some r) :
    r.new.P.spherePos i = (fun k => c.P.spherePos i k + S.timestep * w k) ∧ r.lastVel.Ua i = w := by
  have np : ¬ isPeriodic bl tr := fun h => h hbox
  have hN : 0 < c.P.Ns := by omega
  have flat : ∀ {u : ℕ → Vec3}, u i = w → S.fully_2d_problem = true → zeroY u i = w := by
    intro u hu h2
    rcases h2d with h | h
    · rw [h] at h2; exact absurd h2 (by simp)
    · funext k
      simp only [zeroY, hu]
      split
      · rename_i hk; rw [hk, h]
      · rfl
  rcases timeStep_cases hr with ⟨-, hr⟩ | ⟨-, hr⟩
  · obtain ⟨st, v0, v, p⟩ := euler_parts hr
    have w0 : v0.Ua i = w := by
      rw [(stageVel_spheres p.vel hi).1, hV _ _ _ _ _ _ rfl rfl p.stage]
    have w1 : v.Ua i = w := by
      rw [p.flat]
      split
      · exact flat w0 ‹_›
      · exact w0
    obtain ⟨new, rots, e1, -, e2, -⟩ := p.spheres hN
    rw [wrapIf_nonperiodic np] at e2
    refine ⟨?_, by rw [p.vel_eq]; exact w1⟩
    rw [e2, e1]
    split
    · funext k
      simp only [euler_timestep, w1]
    · rename_i hne
      have hl : lv.Ua i = w := hlv.resolve_left fun h => hne (.inr h)
      funext k
      simp only [ab2_timestep, w1, hl]
      ring
  · obtain ⟨st, v, c1, c2, c3, b1, b2, b3, p⟩ := rk4_parts hr
    have m1 := (move_parts p.move1).sizes
    have m2 := (move_parts p.move2).sizes
    have m3 := (move_parts p.move3).sizes
    have w1 : (v 0).Ua i = w := by rw [(stageVel_spheres p.vel1 hi).1, hV _ _ _ _ _ _ rfl rfl p.stage1]
    have w2 : (v 1).Ua i = w := by rw [(stageVel_spheres p.vel2 hi).1, hV _ _ _ _ _ _ m1.1 m1.2.1 p.stage2]
    have w3 : (v 2).Ua i = w := by rw [(stageVel_spheres p.vel3 hi).1, hV _ _ _ _ _ _ m2.1 m2.2.1 p.stage3]
    have w4 : (v 3).Ua i = w := by rw [(stageVel_spheres p.vel4 hi).1, hV _ _ _ _ _ _ m3.1 m3.2.1 p.stage4]
    have wb : blend (v 0).Ua (v 1).Ua (v 2).Ua (v 3).Ua i = w := by
      funext k
      simp only [blend, w1, w2, w3, w4]
      ring
    have wl : r.lastVel.Ua i = w := by
      rw [p.vel_eq]
      dsimp only
      split
      · exact flat wb ‹_›
      · exact wb
    have m := (p.spheres hN).1
    rw [wrapIf_nonperiodic np] at m
    refine ⟨?_, wl⟩
    rw [m]
    funext k
    simp only [euler_timestep, wl]

theorem told_run {w : Vec3} {s0 : State} {i : ℕ} (hi : i < s0.posdata.P.Ns)
    (h2d : S.fully_2d_problem = false ∨ w 1 = 0) (hbox : ∀ k, bl k - tr k = 0)
    (hV : ∀ d t C reg lv st, d.P.Ns = s0.posdata.P.Ns → d.P.Nd = s0.posdata.P.Nd →
      generate_output_FTSUOE W S d t C reg lv = some st → ∀ x, sphereVel st i x = w)
    {k : ℕ} {s : State} (h : runFrames W S bl tr s0 k = some s) (he : s.error = false) :
    s.posdata.P.spherePos i = (fun a => s0.posdata.P.spherePos i a + k * S.timestep * w a) ∧
      (0 < k → s.lastVel.Ua i = w) := by
  induction k generalizing s with
  | zero =>
    obtain rfl := Option.some.inj h
    exact ⟨by funext a; simp, fun h => absurd h (by omega)⟩
  | succ k ih =>
    have hz := run_sizes h
    obtain ⟨s1, h1, h2⟩ := run_prev h
    have hz1 := run_sizes h1
    have he1 := run_noerror he h2
    obtain ⟨q1, q2⟩ := ih h1 he1
    obtain ⟨-, r, hr, e1, -, -, e4, -⟩ := frame_some he1 h2
    obtain ⟨a, b⟩ := told_step (w := w) (i := i) (by rw [hz1.1]; exact hi) h2d hbox
      (fun d t C reg lv st n1 n2 => hV d t C reg lv st (n1.trans hz1.1) (n2.trans hz1.2.1)) (by
        rcases Nat.eq_zero_or_pos k with rfl | hk
        · left; omega
        · right
          unfold velIn
          rw [if_neg (by omega)]
          exact q2 hk) hr
    refine ⟨?_, fun _ => by rw [e4]; exact b⟩
    rw [e1, a, q1]
    funext x
    push_cast
    ring

/-- The velocity of input 5: the first half to the left, the others to the right. -/
def Spec.apartVel (Ns i : ℕ) : Vec3 := if i < Ns / 2 then ![-1, 0, 0] else ![1, 0, 0]

/-- The velocity of input 6: 45 spheres to the left, 45 to the right. -/
def Spec.wallVel (i : ℕ) : Vec3 := if i < 45 then ![-1, 0, 0] else ![1, 0, 0]

theorem driven_stage {n m : ℕ} (hW : Ships n .ufte W) (hform : S.input_form = .ufte) {w : ℕ → Vec3} {P : PosData}
    (h6 : n = 6 → P.Ns = 99) (hm : m ≤ P.Ns)
    (hU : ∀ f dt u, input_ftsuoe n .ufte P f dt = some u → (∀ i < m, u.inp.Ua.getD i blank = num3 (w i)) ∧
      countPippa u.inp.Ua = P.Ns - m ∧ u.inp.Ea = List.replicate P.Ns (givenMat 0) ∧ u.U = 0 ∧ u.O = 0)
    {d : Config} (hd : d.P = P) {t : ℝ} {C : NDMat} {reg : Bool} {lv : Vel} {st : Stage}
    (hs : generate_output_FTSUOE W S d t C reg lv = some st) {i : ℕ} (hi : i < m) (x : Vec3) : sphereVel st i x = w i := by
  subst hd
  obtain ⟨u, R, u2, hu, -, h1, -, hsol, eU, eO, -⟩ := output_some hs
  obtain rfl := h1 (by rw [hform]; simp)
  rw [hW] at hu
  obtain ⟨a1, a2, a3, a4, a5⟩ := hU _ _ _ hu
  rw [hform] at hsol
  obtain ⟨c1, -, -, c4, -⟩ := ufte_copies (shipped_sized hu h6) hsol
  rw [a2, show d.P.Ns - (d.P.Ns - m) = m by omega] at c1
  have hUa : st.out.Ua.getD i 0 = w i := by
    have e := floatsL_num c1
    have l : i < (u2.inp.Ua.take m).length := by
      rw [List.length_take, (shipped_sized hu h6).Ua]; omega
    have l' : i < (st.out.Ua.take m).length := by rw [e, List.length_map] at l; exact l
    have g := a1 i hi
    rw [← getD_take _ m i _ hi, e, List.getD_eq_getElem _ _ (by rw [List.length_map]; exact l'), List.getElem_map] at g
    rw [← getD_take _ m i _ hi, List.getD_eq_getElem _ _ l']
    exact num3_inj g
  have hEa : st.out.Ea.getD i 0 = 0 := by
    have e := floats33L_num c4
    rw [a3] at e
    have : st.out.Ea = List.replicate d.P.Ns 0 := by
      refine List.map_injective_iff.mpr num33_inj (e.symm.trans ?_)
      rw [List.map_replicate]
      rfl
    rw [this]
    simp [List.getD_eq_getElem?_getD, List.getElem?_replicate]
    split <;> simp
  have zU : st.U = 0 := eU.trans a4
  have zO : st.O = 0 := eO.trans a5
  funext k
  unfold sphereVel
  rw [hUa, hEa, zU, zO]
  fin_cases k <;> simp [affineFlow, cross, app, dotp]

theorem count_rep (n : ℕ) (v : Vec3) : countPippa (List.replicate n (givenRow v)) = 0 := by
  unfold countPippa
  rw [List.countP_eq_zero]
  intro x hx hp
  rw [(List.mem_replicate.mp hx).2] at hp
  exact given_not_blank (given_num3 v) ((isPippa_iff _).mp hp)

theorem getD_rep {α : Type} {n i : ℕ} {a d : α} (h : i < n) : (List.replicate n a).getD i d = a := by
  rw [List.getD_eq_getElem _ _ (by simpa using h)]
  simp

/-- What input 5 prescribes. -/
theorem apart_given {P : PosData} {f dt : ℝ} {u : UserInput} (h : input_ftsuoe 5 .ufte P f dt = some u) :
    (∀ i < P.Ns, u.inp.Ua.getD i blank = num3 (apartVel P.Ns i)) ∧ countPippa u.inp.Ua = P.Ns - P.Ns ∧
      u.inp.Ea = List.replicate P.Ns (givenMat 0) ∧ u.U = 0 ∧ u.O = 0 ∧ u.inp.Ta = List.replicate P.Ns (givenRow 0) ∧
      u.inp.Fb = List.replicate P.Nd (givenRow 0) ∧ u.inp.DFb = List.replicate P.Nd (givenRow 0) := by
  simp [input_ftsuoe, defaultUserInput] at h
  subst h
  refine ⟨fun i hi => ?_, ?_, rfl, rfl, rfl, rfl, rfl, rfl⟩
  · dsimp only
    unfold apartVel
    split
    · rw [List.getD_append _ _ _ _ (by simpa using ‹_›), getD_rep ‹_›]
      rfl
    · rw [List.getD_append_right _ _ _ _ (by rw [List.length_replicate]; omega), List.length_replicate, getD_rep (by omega)]
      rfl
  · have := count_rep (P.Ns / 2) ![-1, 0, 0]
    have := count_rep (P.Ns - P.Ns / 2) ![1, 0, 0]
    unfold countPippa at *
    rw [List.countP_append]
    omega

/-- What input 6 prescribes. -/
theorem wall_given {P : PosData} (hN : P.Ns = 99) {f dt : ℝ} {u : UserInput}
    (h : input_ftsuoe 6 .ufte P f dt = some u) :
    (∀ i < 90, u.inp.Ua.getD i blank = num3 (wallVel i)) ∧ countPippa u.inp.Ua = P.Ns - 90 ∧
      u.inp.Ea = List.replicate P.Ns (givenMat 0) ∧ u.U = 0 ∧ u.O = 0 ∧ u.inp.Ta = List.replicate P.Ns (givenRow 0) ∧
      u.inp.Fb = List.replicate P.Nd (givenRow 0) ∧ u.inp.DFb = List.replicate P.Nd (givenRow 0) ∧
      u.inp.Fa.drop 90 = List.replicate 9 (givenRow ![10, 0, 0]) := by
  simp only [input_ftsuoe, defaultUserInput] at h
  norm_num at h
  subst h
  refine ⟨fun i hi => ?_, ?_, rfl, rfl, rfl, rfl, rfl, rfl, ?_⟩
  · dsimp only
    unfold wallVel
    split
    · rw [List.getD_append _ _ _ _ (by simpa using ‹_›), getD_rep ‹_›]
      rfl
    · rw [List.getD_append_right _ _ _ _ (by rw [List.length_replicate]; omega), List.length_replicate,
        List.getD_append _ _ _ _ (by rw [List.length_replicate]; omega), getD_rep (by omega)]
      rfl
  · have e1 := count_rep 45 ![-1, 0, 0]
    have e2 := count_rep 45 ![1, 0, 0]
    unfold countPippa at *
    dsimp only [defaultInputs, empty_vectors]
    rw [List.countP_append, List.countP_append, e1, e2, List.drop_replicate, List.countP_replicate,
      if_pos ((isPippa_iff pippaRow).mpr rfl)]
    omega
  · dsimp only [defaultInputs, empty_vectors]
    rw [List.take_replicate, List.drop_left' (by simp [hN])]

/-- **C93** (input 5). In the form `ufte`, after `k` error-free frames of any scheme each sphere of the first half is
exactly `k dt` to the left of its start, each of the others exactly `k dt` to the right, whatever else is in the
suspension, whatever the table and the modes. -/
theorem C93_apart (hW : Ships 5 .ufte W) (hform : S.input_form = .ufte) (hbox : ∀ k, bl k - tr k = 0) {s0 s : State} {k : ℕ}
    (h : runFrames W S bl tr s0 k = some s) (he : s.error = false) {i : ℕ} (hi : i < s0.posdata.P.Ns) :
    s.posdata.P.spherePos i
      = fun a => s0.posdata.P.spherePos i a + k * S.timestep * apartVel s0.posdata.P.Ns i a := by
  refine (told_run hi (.inr ?_) hbox (fun d t C reg lv st n1 _ hs x => ?_) h he).1
  · unfold apartVel; split <;> simp
  · rw [← n1]
    exact driven_stage hW hform (by omega) le_rfl (fun f dt u hu => by
      obtain ⟨a, b, c, d, e, -⟩ := apart_given hu
      exact ⟨a, b, c, d, e⟩) rfl hs (by rw [n1]; exact hi) x

/-- **C93** (input 6). With its 99 spheres in the form `ufte`, after `k` error-free frames the first 45 spheres are
exactly `k dt` to the left of their starts and the next 45 exactly `k dt` to the right. -/
theorem C93_walls (hW : Ships 6 .ufte W) (hform : S.input_form = .ufte) (hbox : ∀ k, bl k - tr k = 0) {s0 s : State}
    (hN : s0.posdata.P.Ns = 99) {k : ℕ} (h : runFrames W S bl tr s0 k = some s) (he : s.error = false) {i : ℕ} (hi : i < 90) :
    s.posdata.P.spherePos i = fun a => s0.posdata.P.spherePos i a + k * S.timestep * wallVel i a := by
  refine (told_run (by omega) (.inr ?_) hbox (fun d t C reg lv st n1 _ hs x => ?_) h he).1
  · unfold wallVel; split <;> simp
  · exact driven_stage hW hform (fun _ => n1.trans hN) (m := 90) (by omega) (fun f dt u hu => by
      obtain ⟨a, b, c, d, e, -⟩ := wall_given (n1.trans hN) hu
      exact ⟨a, b, c, d, e⟩) rfl hs hi x

/-- **C93** (what the answers say). In each stage with input 5 or 6 all torques, strains and loads on dumbbells are
zero, the velocities are the prescribed ones, and with input 6 each of the last nine spheres carries the force
`(10, 0, 0)`. -/
theorem C93_answers {n : ℕ} (hn : n = 5 ∨ n = 6) (hW : Ships n .ufte W) (hform : S.input_form = .ufte) {c : Config}
    (h6 : n = 6 → c.P.Ns = 99) {t : ℝ} {C : NDMat} {reg : Bool} {lv : Vel} {st : Stage}
    (hs : generate_output_FTSUOE W S c t C reg lv = some st) :
    st.out.Ta = List.replicate c.P.Ns 0 ∧ st.out.Ea = List.replicate c.P.Ns 0 ∧
      st.out.Fb = List.replicate c.P.Nd 0 ∧ st.out.DFb = List.replicate c.P.Nd 0 ∧
      (n = 5 → ∀ i < c.P.Ns, st.out.Ua.getD i 0 = apartVel c.P.Ns i) ∧
      (n = 6 → (∀ i < 90, st.out.Ua.getD i 0 = wallVel i) ∧ st.out.Fa.drop 90 = List.replicate 9 ![10, 0, 0]) := by
  obtain ⟨u, R, u2, hu, -, h1, -, hsol, -⟩ := output_some hs
  obtain rfl := h1 (by rw [hform]; simp)
  rw [hW] at hu
  rw [hform] at hsol
  have hz := shipped_sized hu h6
  obtain ⟨c1, c2, c3, c4, c5, c6⟩ := ufte_copies hz hsol
  have e4 := floats33L_num c4
  have e3 := floatsL_num c3
  have e5 := floatsL_num c5
  have e6 := floatsL_num c6
  have rep3 : ∀ {l : List Vec3} {m : ℕ} {v : Vec3}, List.replicate m (givenRow v) = l.map num3 → l = List.replicate m v :=
    fun {l m v} h => List.map_injective_iff.mpr num3_inj (h.symm.trans (by rw [List.map_replicate]; rfl))
  have rep33 : ∀ {l : List Mat3} {m : ℕ}, List.replicate m (givenMat 0) = l.map num33 → l = List.replicate m 0 :=
    fun {l m} h => List.map_injective_iff.mpr num33_inj (h.symm.trans (by rw [List.map_replicate]; rfl))
  have copy : ∀ {m i : ℕ} {w : Vec3}, floatsL (u2.inp.Ua.take m) = some (st.out.Ua.take m) → i < m → m ≤ c.P.Ns →
      u2.inp.Ua.getD i blank = num3 w → st.out.Ua.getD i 0 = w := by
    intro m i w hc hi hm g
    have e := floatsL_num hc
    have l : i < (u2.inp.Ua.take m).length := by rw [List.length_take, hz.Ua]; omega
    have l' : i < (st.out.Ua.take m).length := by rw [e, List.length_map] at l; exact l
    rw [← getD_take _ m i _ hi, e, List.getD_eq_getElem _ _ (by rw [List.length_map]; exact l'), List.getElem_map] at g
    rw [← getD_take _ m i _ hi, List.getD_eq_getElem _ _ l']
    exact num3_inj g
  rcases hn with rfl | rfl
  · obtain ⟨a1, a2, a3, -, -, a6, a7, a8⟩ := apart_given hu
    rw [a3] at e4
    rw [a6] at e3
    rw [a7] at e5
    rw [a8] at e6
    refine ⟨rep3 e3, rep33 e4, rep3 e5, rep3 e6, fun _ i hi => ?_, fun h => absurd h (by omega)⟩
    rw [a2, show c.P.Ns - (c.P.Ns - c.P.Ns) = c.P.Ns by omega] at c1
    exact copy c1 hi le_rfl (a1 i hi)
  · have hN := h6 rfl
    obtain ⟨a1, a2, a3, -, -, a6, a7, a8, a9⟩ := wall_given hN hu
    rw [a3] at e4
    rw [a6] at e3
    rw [a7] at e5
    rw [a8] at e6
    rw [a2, hN] at c1 c2
    refine ⟨rep3 e3, rep33 e4, rep3 e5, rep3 e6, fun h => absurd h (by omega), fun _ => ⟨fun i hi => ?_, ?_⟩⟩
    · exact copy c1 hi (by omega) (a1 i hi)
    · exact rep3 (a9.symm.trans (floatsL_num c2))

/-! ## The hypotheses can be met -/

/-- One Euler step after the other in the form `ufte`. -/
noncomputable def toldSettings (N : ℕ) : Settings := { starSettings .euler N with input_form := .ufte }

theorem toldSettings_ok (N Nd : ℕ) : Runnable (toldSettings N) Nd := by
  obtain ⟨a1, a2, a3, a4, a5, a6, a7, a8, a9⟩ := starSettings_ok (sch := .euler) (Nd := Nd) N (.inl rfl)
  exact ⟨a1, a2, a3, a4, a5, a6, a7, a8, a9⟩

/-- Two nearly touching spheres are pulled apart with input 5 for any number of frames, with the shipped table. -/
example (N k : ℕ) : ∃ s, runFrames (listedWorld 5 .ufte) (toldSettings N) 0 0 (State.fresh apartStart) k = some s ∧
    s.posdata.P.spherePos 1 0 - s.posdata.P.spherePos 0 0 = 2.015 + 2 * (k * (toldSettings N).timestep) := by
  have hbox : ∀ k : Fin 3, (0 : Vec3) k - (0 : Vec3) k = 0 := fun k => sub_self _
  have hR := toldSettings_ok N apartStart.P.Nd
  have dt0 : 0 ≤ (toldSettings N).timestep := by norm_num [toldSettings, starSettings, loneSettings]
  have hE : EqualBeads apartStart.P 1 := apartP_equal _
  have err : ∀ {j : ℕ} {s : State},
      runFrames (listedWorld 5 .ufte) (toldSettings N) 0 0 (State.fresh apartStart) j = some s → s.error = false := by
    intro j s h
    induction j generalizing s with
    | zero => obtain rfl := Option.some.inj h; rfl
    | succ j ih =>
      obtain ⟨s1, h1, h2⟩ := run_prev h
      obtain ⟨-, r, hr, -, e2, -⟩ := frame_some (ih h1) h2
      have hz := (run_sizes h1).2.1
      unfold frameStep timeStep at hr
      obtain ⟨st, v0, v, p⟩ := euler_parts (W := listedWorld 5 .ufte) (S := toldSettings N) hr
      rw [e2]
      exact (p.noDumbs hz).2.2
  have pos : ∀ {j : ℕ} {s : State},
      runFrames (listedWorld 5 .ufte) (toldSettings N) 0 0 (State.fresh apartStart) j = some s →
      s.posdata.P.spherePos 1 0 - s.posdata.P.spherePos 0 0 = 2.015 + 2 * (j * (toldSettings N).timestep) := by
    intro j s h
    have h1 := congrFun (C93_apart (listedWorld_ships 5 .ufte) rfl hbox h (err h) (i := 1) (by simp [State.fresh, apartStart, apartP])) 0
    have h0 := congrFun (C93_apart (listedWorld_ships 5 .ufte) rfl hbox h (err h) (i := 0) (by simp [State.fresh, apartStart, apartP])) 0
    rw [h1, h0]
    simp [State.fresh, apartStart, apartP, apartVel]
    ring
  have st : Steady (listedWorld 5 .ufte) (toldSettings N) apartStart :=
    shipped_steady (listedWorld_ships 5 .ufte) rfl (fun x hx => by rw [hE x hx]; norm_num)
      (fun x hx y hy => ⟨1, by simp [listedWorld, shippedTable], by
        rw [hE x hx, hE y hy]; norm_num⟩)
      (by simp [formAllowed, apartStart, apartP]) (.inr rfl) (by simp [apartStart, apartP]) (by omega) (by omega)
      (show 5 = 1 ∨ 5 = 2 ∨ 5 = 5 ∨ 5 = 6 by omega)
  obtain ⟨s, hs, -⟩ := run_exists (W := listedWorld 5 .ufte) (S := toldSettings N) (K := Stiff apartStart 1 1) hR apartStart_arrows
    (bl := 0) (tr := 0) rfl k (by
      intro j _ s h _ d hd
      obtain rfl : d = s.posdata := by
        rcases hd with h | ⟨h, -⟩
        · exact h
        · exact absurd h (by simp [toldSettings, starSettings, loneSettings])
      have hz := run_sizes h
      have hsz : SameSizes apartStart s.posdata := ⟨hz.1, hz.2.1, hz.2.2.1, hz.2.2.2⟩
      have ht : ¬ Touching s.posdata.P := by
        rintro ⟨x, hx, y, hy, hxy, hl⟩
        obtain ⟨e1, e2⟩ := same_beads hsz
        rw [e2, hE x (e1 ▸ hx), hE y (e1 ▸ hy)] at hl
        have hb : beads apartStart.P = 2 := rfl
        rw [e1, hb] at hx hy
        have hp := pos h
        have h2 : s.posdata.P.Ns = 2 := hz.1
        have hj : (0 : ℝ) ≤ j * (toldSettings N).timestep := mul_nonneg (Nat.cast_nonneg j) dt0
        have big := abs_comp_le (fun i => centre s.posdata.P x i - centre s.posdata.P y i) 0
        have : |centre s.posdata.P x 0 - centre s.posdata.P y 0| = s.posdata.P.spherePos 1 0 - s.posdata.P.spherePos 0 0 := by
          have : x = 0 ∧ y = 1 ∨ x = 1 ∧ y = 0 := by omega
          rcases this with ⟨rfl, rfl⟩ | ⟨rfl, rfl⟩ <;> simp only [centre, h2]
          · rw [abs_sub_comm, abs_of_nonneg] <;> norm_num <;> linarith
          · rw [abs_of_nonneg] <;> norm_num <;> linarith
        rw [this, hp] at big
        norm_num at hl
        linarith
      have hr := steady_ready st hsz ht
      exact ⟨hr, shipped_serves rfl rfl hR.cutoff one_pos hE (fun d f dt v r u hu => by
        rw [listedWorld_ships] at hu
        exact (shipped_box hu).1) hr hsz⟩)
  exact ⟨s, hs, pos hs⟩

end SD
