import Verif.Lemmas.Moved

/-!
# A stage of a moved simulation
-/

set_option autoImplicit false

namespace SD.Move

open Spec Cov

/-! ## The extraction flag and the reported strains -/

theorem solve_extract {form : InputForm} {e : Bool} {Ns Nd : ℕ} {R : NDMat} {x : Inputs} {p : Outputs}
    (h : solveForm form e Ns Nd R x = some p) :
    solveForm form false Ns Nd R x = some p ∧
      ∀ {R' : NDMat} {x' : Inputs} {q : Outputs}, solveForm form false Ns Nd R' x' = some q →
        solveForm form e Ns Nd R' x' = some q := by
  cases e
  · exact ⟨h, fun h => h⟩
  · cases form with
    | ufte =>
      simp only [solveForm, solveUFTE] at h
      obtain ⟨_, -, h⟩ := Option.bind_eq_some_iff.mp h
      obtain ⟨_, -, h⟩ := Option.bind_eq_some_iff.mp h
      obtain ⟨_, -, h⟩ := Option.bind_eq_some_iff.mp h
      exact absurd h (by simp)
    | _ => exact ⟨h, fun h => h⟩

/-- The reported strains are the given ones, except in the form `fts` with spheres, where there is one for every
sphere. -/
theorem solve_strains {form : InputForm} {e : Bool} {Ns Nd : ℕ} {R : NDMat} {x : Inputs} {p : Outputs}
    (h : solveForm form e Ns Nd R x = some p) :
    if form = .fts ∧ 0 < Ns then p.Ea.length = Ns else x.Ea.mapM floats33 = some p.Ea := by
  cases form with
  | fts =>
    simp only [solveForm, solveFTS] at h
    obtain ⟨_, -, h⟩ := Option.bind_eq_some_iff.mp h
    obtain ⟨_, -, h⟩ := Option.bind_eq_some_iff.mp h
    obtain ⟨_, -, h⟩ := Option.bind_eq_some_iff.mp h
    obtain ⟨_, -, h⟩ := Option.bind_eq_some_iff.mp h
    obtain ⟨_, -, h⟩ := Option.bind_eq_some_iff.mp h
    obtain ⟨_, -, h⟩ := Option.bind_eq_some_iff.mp h
    obtain ⟨_, -, h⟩ := Option.bind_eq_some_iff.mp h
    obtain ⟨Ea, h6, h⟩ := Option.bind_eq_some_iff.mp h
    obtain rfl := Option.some.inj h
    by_cases h0 : Ns = 0
    · rw [if_neg (by omega)]
      rwa [if_pos h0] at h6
    · rw [if_pos ⟨rfl, by omega⟩]
      rw [if_neg h0] at h6
      obtain rfl := Option.some.inj h6
      exact dec_e_len Ns Nd _
  | fte =>
    rw [if_neg (by simp)]
    simp only [solveForm, solveFTE] at h
    obtain ⟨_, -, h⟩ := Option.bind_eq_some_iff.mp h
    obtain ⟨_, -, h⟩ := Option.bind_eq_some_iff.mp h
    obtain ⟨_, -, h⟩ := Option.bind_eq_some_iff.mp h
    obtain ⟨_, -, h⟩ := Option.bind_eq_some_iff.mp h
    obtain ⟨_, -, h⟩ := Option.bind_eq_some_iff.mp h
    obtain ⟨Ea, h6, h⟩ := Option.bind_eq_some_iff.mp h
    obtain ⟨_, -, h⟩ := Option.bind_eq_some_iff.mp h
    obtain ⟨_, -, h⟩ := Option.bind_eq_some_iff.mp h
    obtain rfl := Option.some.inj h
    exact h6
  | ufte =>
    rw [if_neg (by simp)]
    simp only [solveForm, solveUFTE] at h
    obtain ⟨_, -, h⟩ := Option.bind_eq_some_iff.mp h
    obtain ⟨_, -, h⟩ := Option.bind_eq_some_iff.mp h
    obtain ⟨_, -, h⟩ := Option.bind_eq_some_iff.mp h
    cases e
    · rw [if_neg (by simp)] at h
      obtain ⟨_, -, h⟩ := Option.bind_eq_some_iff.mp h
      obtain ⟨_, -, h⟩ := Option.bind_eq_some_iff.mp h
      obtain ⟨_, -, h⟩ := Option.bind_eq_some_iff.mp h
      obtain ⟨_, -, h⟩ := Option.bind_eq_some_iff.mp h
      obtain ⟨Ea, h6, h⟩ := Option.bind_eq_some_iff.mp h
      obtain ⟨_, -, h⟩ := Option.bind_eq_some_iff.mp h
      obtain ⟨_, -, h⟩ := Option.bind_eq_some_iff.mp h
      obtain rfl := Option.some.inj h
      exact h6
    · exact absurd h (by simp)
  | ufteu =>
    rw [if_neg (by simp)]
    simp only [solveForm, solveUFTEU] at h
    obtain ⟨_, -, h⟩ := Option.bind_eq_some_iff.mp h
    obtain ⟨_, -, h⟩ := Option.bind_eq_some_iff.mp h
    obtain ⟨_, -, h⟩ := Option.bind_eq_some_iff.mp h
    obtain ⟨_, -, h⟩ := Option.bind_eq_some_iff.mp h
    obtain ⟨_, -, h⟩ := Option.bind_eq_some_iff.mp h
    obtain ⟨_, -, h⟩ := Option.bind_eq_some_iff.mp h
    obtain ⟨_, -, h⟩ := Option.bind_eq_some_iff.mp h
    obtain ⟨_, -, h⟩ := Option.bind_eq_some_iff.mp h
    obtain ⟨Ea, h6, h⟩ := Option.bind_eq_some_iff.mp h
    obtain ⟨_, -, h⟩ := Option.bind_eq_some_iff.mp h
    obtain ⟨_, -, h⟩ := Option.bind_eq_some_iff.mp h
    obtain ⟨_, -, h⟩ := Option.bind_eq_some_iff.mp h
    obtain ⟨_, -, h⟩ := Option.bind_eq_some_iff.mp h
    obtain rfl := Option.some.inj h
    exact h6
  | duf =>
    rw [if_neg (by simp)]
    simp only [solveForm, solveDUF] at h
    obtain ⟨_, -, h⟩ := Option.bind_eq_some_iff.mp h
    obtain ⟨_, -, h⟩ := Option.bind_eq_some_iff.mp h
    obtain ⟨_, -, h⟩ := Option.bind_eq_some_iff.mp h
    obtain ⟨_, -, h⟩ := Option.bind_eq_some_iff.mp h
    obtain ⟨_, -, h⟩ := Option.bind_eq_some_iff.mp h
    obtain ⟨_, -, h⟩ := Option.bind_eq_some_iff.mp h
    obtain ⟨_, -, h⟩ := Option.bind_eq_some_iff.mp h
    obtain ⟨_, -, h⟩ := Option.bind_eq_some_iff.mp h
    obtain ⟨_, -, h⟩ := Option.bind_eq_some_iff.mp h
    obtain ⟨Ea, h6, h⟩ := Option.bind_eq_some_iff.mp h
    obtain rfl := Option.some.inj h
    exact h6

/-- The answer to the transformed problem has the transformed strains, for all entries. -/
theorem same_outputs {form : InputForm} {Ns Nd : ℕ} {R R' : NDMat} {x : Inputs} {p q : Outputs} (m : Rule)
    (hp : solveForm form false Ns Nd R x = some p) (hq : solveForm form false Ns Nd R' (m.inputs x x) = some q)
    (h : SameMotion Ns (m.outputs p p) q) : q = m.outputs p p := by
  have e : q.Ea = (m.outputs p p).Ea := by
    have a := solve_strains hp
    have b := solve_strains hq
    by_cases hc : form = .fts ∧ 0 < Ns
    · rw [if_pos hc] at a b
      have := h.Ea
      rw [List.take_of_length_le (by simp [Rule.outputs, a]), List.take_of_length_le (by omega)] at this
      exact this.symm
    · rw [if_neg hc] at a b
      have a' := floats33L_num a
      have b' := floats33L_num b
      rw [show (m.inputs x x).Ea = List.zipWith (mats m.E) x.Ea x.Ea from rfl, a', zip_map33] at b'
      exact (List.map_injective_iff.mpr (fun a b h => num33_inj h) b').symm
  cases q
  simp only [Rule.outputs] at e ⊢
  simp only [Rule.outputs] at h
  have := h.Fa; have := h.Ta; have := h.Sa; have := h.Fb; have := h.DFb; have := h.Ua; have := h.Oa; have := h.Ub
  have := h.HalfDUb
  simp_all

/-! ## Translation -/

theorem centre_shift (P : PosData) (t : Vec3) (u : ℕ) : centre (shift P t) u = fun i => centre P u i + t i := by
  funext i
  show (if u < P.Ns then P.spherePos u i + t i
    else if u < P.Ns + P.Nd then P.dumbPos (u - P.Ns) i + t i - P.dumbDx (u - P.Ns) i / 2
    else P.dumbPos (u - (P.Ns + P.Nd)) i + t i + P.dumbDx (u - (P.Ns + P.Nd)) i / 2) = _
  simp only [centre]
  by_cases h1 : u < P.Ns
  · simp only [if_pos h1]
  · by_cases h2 : u < P.Ns + P.Nd
    · simp only [if_neg h1, if_pos h2]; ring
    · simp only [if_neg h1, if_neg h2]; ring

theorem near_shift (T : ScalarTable) (P : PosData) (t : Vec3) (k mu : ℝ) (bb : Bool) :
    generate_R2Bexact T (shift P t) k mu bb = generate_R2Bexact T P k mu bb := by
  have e : ∀ x y, (shift P t).beadPos x - (shift P t).beadPos y = P.beadPos x - P.beadPos y := by
    intro x y
    rw [beadPos_eq, beadPos_eq, centre_shift, centre_shift]
    funext i; simp
  have e2 : ∀ x y k, (shift P t).beadPos x k - (shift P t).beadPos y k = P.beadPos x k - P.beadPos y k :=
    fun x y k => congrFun (e x y) k
  have hc : close_particles (P.Ns + 2 * P.Nd) (shift P t).beadPos P.beadSize k
      = close_particles (P.Ns + 2 * P.Nd) P.beadPos P.beadSize k := by
    unfold close_particles
    simp only [distanceOverAverage, e, e2]
    congr!
  show R2BexactOfPairs T (shift P t) mu bb (close_particles (P.Ns + 2 * P.Nd) (shift P t).beadPos P.beadSize k) = _
  rw [hc]
  rfl

theorem grand_shift (T : ScalarTable) (P : PosData) (t : Vec3) (last : NDMat) (reg : Bool) (k : ℝ)
    (dragM only : Bool) (mu : ℝ) (bb : Bool) :
    generate_grand_resistance_matrix T (shift P t) last reg k dragM only mu bb
      = generate_grand_resistance_matrix T P last reg k dragM only mu bb := by
  unfold generate_grand_resistance_matrix
  rw [C12_translation, near_shift]
  rfl

/-! ## The stage -/

/-- Two cached matrices that belong to a configuration and the moved one. -/
structure CacheMoved (Ns Nd : ℕ) (Q : Fin 3 → Fin 3 → ℝ) (C C' : NDMat) : Prop where
  symm : ∀ i j, C.get i j = C.get j i
  dims : C.rows = 11 * Ns + 6 * Nd ∧ C.cols = 11 * Ns + 6 * Nd
  dims' : C'.rows = 11 * Ns + 6 * Nd ∧ C'.cols = 11 * Ns + 6 * Nd
  turn : ∀ v v', GrandTurned Ns Nd Q v v' →
    GrandTurned Ns Nd Q (mulVec (11 * Ns + 6 * Nd) C.get v) (mulVec (11 * Ns + 6 * Nd) C'.get v')

/-- What a stage of the moved simulation gives. -/
structure MovedStage (F : Prop) (Q : Fin 3 → Fin 3 → ℝ) (t : Vec3) (Ns Nd : ℕ) (st st' : Stage) : Prop where
  out : st'.out = (turning Q).outputs st.out st.out
  U : st'.U = turnVec Q st.U
  O : st'.O = turnAxial Q st.O
  centre : F → st'.centre = movePoint Q t st.centre
  uniform : ¬ F → st.O = 0 ∧ ∀ m ∈ st.out.Ea, m = 0
  cache : CacheMoved Ns Nd Q st.cache st'.cache

section
variable {Q : Fin 3 → Fin 3 → ℝ} {t : Vec3} {W W' : World} {S : Settings} {F : Prop}

theorem stage_moved (hQ : Orthogonal Q) (hW : MovedWorld F S.input_form Q t W W') {c : Config} {f : ℝ} {last last' : NDMat} {reg : Bool}
    {lv : Vel} {st : Stage} (hP : Sensible c.P) (hk : 0 < S.cutoff_factor)
    (hT : Tabulated W.table.lam c.P S.cutoff_factor) (hf : formAllowed S.input_form c.P.Ns)
    (hin : ∀ f dt lv r u, W.input_ftsuoe c f dt lv r = some u → Sized c.P.Ns c.P.Nd u.inp ∧ Traceless u.inp)
    (hpd : ∀ u R C, W.input_ftsuoe c f S.timestep lv none = some u →
      generate_grand_resistance_matrix W.table c.P last reg S.cutoff_factor S.use_drag_Minfinity S.use_Minfinity_only
        u.mu S.bead_bead_interactions = some (R, C) → PosDef R.get (side c.P))
    (hl : S.use_drag_Minfinity = false → reg = false → CacheMoved c.P.Ns c.P.Nd Q last last')
    (h : generate_output_FTSUOE W S c f last reg lv = some st) :
    ∃ st', generate_output_FTSUOE W' S (movedConfig Q t c) f last' reg (turnedVel Q lv) = some st' ∧
      MovedStage F Q t c.P.Ns c.P.Nd st st' := by
  obtain ⟨u, R, u2, h1, h2, h3, h4, h5, e1, e2, e3, -, -⟩ := output_some h
  obtain ⟨u', g1, m1⟩ := hW.input c f S.timestep lv none none u rfl h1
  have np : ∀ {u u' : UserInput}, MovedInput F S.input_form Q t u u' → ¬ isPeriodic u.bl u.tr ∧ ¬ isPeriodic u'.bl u'.tr := by
    intro u u' m
    unfold isPeriodic
    rw [m.unbounded, m.unbounded']
    exact ⟨fun h => h fun k => sub_self _, fun h => h fun k => sub_self _⟩
  have hG : generate_grand_resistance_matrix W.table c.P last reg S.cutoff_factor S.use_drag_Minfinity
      S.use_Minfinity_only u.mu S.bead_bead_interactions = some (R, st.cache) := by
    unfold stageResistance at h2
    rwa [if_neg (np m1).1] at h2
  obtain ⟨h6, back⟩ := solve_extract h5
  -- the inputs that are solved
  have hu2 : ∃ f dt lv r, W.input_ftsuoe c f dt lv r = some u2 := by
    by_cases he : S.input_form = .fte
    · obtain ⟨R', -, h⟩ := h4 he
      exact ⟨_, _, _, _, h⟩
    · rw [h3 he]; exact ⟨_, _, _, _, h1⟩
  obtain ⟨_, _, _, _, hu2⟩ := hu2
  obtain ⟨sz, tl⟩ := hin _ _ _ _ _ hu2
  have hl' := fun a b => (hl a b)
  obtain ⟨R', C', k1, q, k2, k3⟩ := C63_turn (last' := last') hP hQ hk hT
    (fun a b => ⟨(hl' a b).symm, (hl' a b).dims, (hl' a b).dims', (hl' a b).turn⟩) hG (hpd u R _ h1 hG) hf sz tl h6
  obtain ⟨R2, C2, k4, k5⟩ := C56_grand (last' := last') hP hQ hk hT (fun a b => (hl' a b).turn) hG
  obtain ⟨rfl, rfl⟩ : R' = R2 ∧ C' = C2 := by
    rw [k1] at k4
    exact Prod.ext_iff.mp (Option.some.inj k4)
  obtain ⟨-, d1⟩ := grand_dims hP hk hT (fun a b => (hl' a b).dims) hG
  obtain ⟨-, d2⟩ := grand_dims (turned_sensible hP hQ) hk (tabulated_turned hQ hT) (fun a b => (hl' a b).dims') k1
  have sy := fun i j => (C25_symmetric hP hk hT (fun a b => (hl' a b).symm) hG i j).2
  have ho := same_outputs (turning Q) h6 k2 k3
  -- the second call of the input function
  have second : ∃ u2', (if S.input_form = .fte then do
        let R' ← fts_to_fte_matrix c.P.Ns c.P.Nd R'
        W'.input_ftsuoe (movedConfig Q t c) f S.timestep (turnedVel Q lv) (some R')
      else some u' : Option UserInput) = some u2' ∧ MovedInput F S.input_form Q t u2 u2' := by
    by_cases he : S.input_form = .fte
    · obtain ⟨R1, -, h⟩ := h4 he
      rw [he] at k2
      simp only [solveForm, solveFTE] at k2
      obtain ⟨R3, b1, -⟩ := Option.bind_eq_some_iff.mp k2
      obtain ⟨u2', b2, b3⟩ := hW.input c f S.timestep lv (some R1) (some R3) u2 rfl h
      refine ⟨u2', ?_, b3⟩
      rw [if_pos he, b1]
      exact b2
    · rw [if_neg he, h3 he]
      exact ⟨u', rfl, m1⟩
  obtain ⟨u2', b1, b2⟩ := second
  have hun : ¬ F → st.O = 0 ∧ ∀ m ∈ st.out.Ea, m = 0 := by
    intro hF
    obtain ⟨n1, n2, n3⟩ := b2.uniform hF
    refine ⟨by rw [e2]; exact n2, fun m hm => ?_⟩
    have a := solve_strains h6
    rw [if_neg fun h => n1 h.1] at a
    have := n3 (num33 m) (by rw [floats33L_num a]; exact List.mem_map_of_mem hm)
    exact num33_inj this
  refine ⟨{ out := q, cache := C', U := u2'.U, O := u2'.O, centre := u2'.centre, Ot := u2'.Ot, Et := u2'.Et }, ?_,
    ⟨ho, by rw [e1]; exact b2.U, by rw [e2]; exact b2.O, fun hF => by rw [e3]; exact b2.centre hF, hun,
      ⟨sy, d1, d2, fun v v' hv => (k5 v v' hv).2⟩⟩⟩
  have hR : stageResistance W' S (movedConfig Q t c) last' reg u' = some (R', C') := by
    unfold stageResistance
    rw [if_neg (np m1).2, hW.table, m1.mu]
    show generate_grand_resistance_matrix _ (shift (turned c.P Q) t) _ _ _ _ _ _ _ = _
    rw [grand_shift]
    exact k1
  unfold generate_output_FTSUOE
  rw [g1, Option.bind_eq_bind, Option.bind_some, hR, Option.bind_eq_bind, Option.bind_some]
  show (_ : Option UserInput) >>= _ = _
  erw [b1]
  rw [Option.bind_eq_bind, Option.bind_some, b2.inp]
  show (solveForm S.input_form S.extract c.P.Ns c.P.Nd R' _).bind _ = _
  rw [back k2]
  rfl

/-! ## Velocities of a stage -/

theorem vel_moved_flow (hQ : Orthogonal Q) {c : Config} {st st' : Stage}
    (hst : MovedStage True Q t c.P.Ns c.P.Nd st st') (Ed : List Mat3) :
    stageVel (movedConfig Q t c) st' (Ed.map (turnMat Q)) = (stageVel c st Ed).map (turnedVel Q) := by
  have a1 : ∀ l i, asArr (List.zipWith (turning Q).U l l) i = turnVec Q (asArr l i) := by
    intro l i
    rw [List.zipWith_self]
    exact getD_map0 l i
  have a2 : ∀ l i, asArr (List.zipWith (turning Q).O l l) i = turnAxial Q (asArr l i) := by
    intro l i
    rw [List.zipWith_self]
    exact getD_mapA l i
  have a3 : ∀ l i, asArrM (List.zipWith (turning Q).E l l) i = turnMat Q (asArrM l i) := by
    intro l i
    rw [List.zipWith_self]
    exact getD_mapM l i
  have a4 : (Ed.map (turnMat Q)).headD 0 = turnMat Q (Ed.headD 0) := by
    cases Ed with
    | nil => exact (turnM_zero Q).symm
    | cons => rfl
  unfold stageVel
  have hlen : st'.out.Ea.length = st.out.Ea.length := by rw [hst.out]; simp [Rule.outputs]
  show (if 0 < c.P.Ns ∧ st'.out.Ea.length < c.P.Ns then none
    else if 0 < c.P.Nd ∧ Ed.map (turnMat Q) = [] then none else _) = _
  simp only [hlen, List.map_eq_nil_iff]
  by_cases h1 : 0 < c.P.Ns ∧ st.out.Ea.length < c.P.Ns
  · rw [if_pos h1, if_pos h1]; rfl
  rw [if_neg h1, if_neg h1]
  by_cases h2 : 0 < c.P.Nd ∧ Ed = []
  · rw [if_pos h2, if_pos h2]; rfl
  rw [if_neg h2, if_neg h2, Option.map_some]
  congr 1
  simp only [turnedVel, Vel.mk.injEq]
  rw [hst.out, hst.U, hst.O, hst.centre trivial, a4]
  have sp : ∀ i, (movedConfig Q t c).P.spherePos i = movePoint Q t (c.P.spherePos i) := fun _ => rfl
  have sd : ∀ i, (movedConfig Q t c).P.dumbPos i = movePoint Q t (c.P.dumbPos i) := fun _ => rfl
  have dx : ∀ i, (movedConfig Q t c).P.dumbDx i = turnVec Q (c.P.dumbDx i) := fun _ => rfl
  have zs : ∀ (p : Prop) [Decidable p] (x y : ℕ → Vec3) (g : Vec3 → Vec3), g 0 = 0 → (∀ i, x i = g (y i)) →
      (if p then x else fun _ _ => 0) = fun i => g ((if p then y else fun _ _ => 0) i) := by
    intro p _ x y g g0 h
    by_cases hp : p
    · rw [if_pos hp, if_pos hp]; exact funext h
    · rw [if_neg hp, if_neg hp]; funext i; exact g0.symm
  refine ⟨zs _ _ _ _ (turn_zero Q) fun i => ?_, zs _ _ _ _ (turn_zero Q) fun i => ?_,
    zs _ _ _ _ (turn_zero Q) fun i => ?_, zs _ _ _ _ (axial_zero Q) fun i => ?_⟩
  · simp only [add_background_flow_spheres, Rule.outputs, a1, a3, sp, move_sub, npCross_eq, matVec3_eq, cross_axial hQ,
      app_turn hQ]
    funext k
    simp only [turnVec, Fin.sum_univ_three]; ring
  · simp only [add_background_flow_dumbbells, Rule.outputs, a1, sd, move_sub, npCross_eq, matVec3_eq, cross_axial hQ,
      app_turn hQ]
    funext k
    simp only [turnVec, Fin.sum_univ_three]; ring
  · simp only [add_background_flow_dumbbells, Rule.outputs, a1, dx, npCross_eq, matVec3_eq, cross_axial hQ,
      app_turn hQ]
    funext k
    simp only [turnVec, Fin.sum_univ_three]; ring
  · simp only [add_background_flow_spheres, Rule.outputs, a2]
    funext k
    simp only [turnAxial, turnVec, Fin.sum_univ_three]; ring

/-- Without rotation and strain the centre of the flow does not matter. -/
theorem vel_centre (c : Config) {st : Stage} (z : Vec3) {Ed : List Mat3} (hO : st.O = 0) (hE : ∀ m ∈ st.out.Ea, m = 0)
    (hd : ∀ m ∈ Ed, m = 0) : stageVel c { st with centre := z } Ed = stageVel c st Ed := by
  have a3 : ∀ i, asArrM st.out.Ea i = 0 := by
    intro i
    unfold asArrM
    rw [List.getD_eq_getElem?_getD]
    rcases h : st.out.Ea[i]? with _ | m
    · rfl
    · exact hE m (List.mem_of_getElem? h)
  have a4 : Ed.headD 0 = 0 := by
    cases Ed with
    | nil => rfl
    | cons a l => exact hd a (by simp)
  unfold stageVel
  simp only [add_background_flow_spheres, add_background_flow_dumbbells, a3, a4, hO, npCross_eq, matVec3_eq]
  have e1 : ∀ x : Vec3, cross 0 x = 0 := by intro x; funext i; fin_cases i <;> simp [cross]
  have e2 : ∀ x : Vec3, app 0 x = 0 := by intro x; funext i; simp [app, dotp]
  simp only [e1, e2]

theorem vel_moved (hQ : Orthogonal Q) {c : Config} {st st' : Stage} (hst : MovedStage F Q t c.P.Ns c.P.Nd st st')
    (Ed : List Mat3) (hE : ¬ F → ∀ m ∈ Ed, m = 0) :
    stageVel (movedConfig Q t c) st' (Ed.map (turnMat Q)) = (stageVel c st Ed).map (turnedVel Q) := by
  by_cases hF : F
  · exact vel_moved_flow hQ ⟨hst.out, hst.U, hst.O, fun _ => hst.centre hF, fun h => absurd trivial h, hst.cache⟩ Ed
  · rw [← vel_moved_flow hQ (st := st) (st' := { st' with centre := movePoint Q t st.centre })
      ⟨hst.out, hst.U, hst.O, fun _ => rfl, fun h => absurd trivial h, hst.cache⟩ Ed]
    obtain ⟨h1, h2⟩ := hst.uniform hF
    refine (vel_centre _ _ (by rw [hst.O, h1, axial_zero]) ?_ ?_).symm
    · intro m hm
      rw [hst.out] at hm
      simp only [Rule.outputs, List.zipWith_self] at hm
      obtain ⟨n, hn, rfl⟩ := List.mem_map.mp hm
      rw [h2 n hn]
      exact turnM_zero Q
    · intro m hm
      obtain ⟨n, hn, rfl⟩ := List.mem_map.mp hm
      rw [hE hF n hn]
      exact turnM_zero Q

theorem strains_moved {Ns Nd : ℕ} {st st' : Stage} (h : MovedStage F Q t Ns Nd st st') :
    st'.out.Ea = st.out.Ea.map (turnMat Q) := by
  rw [h.out]
  show List.zipWith (turning Q).E _ _ = _
  rw [List.zipWith_self]
  rfl

theorem forces_moved {Ns Nd : ℕ} {st st' : Stage} (h : MovedStage F Q t Ns Nd st st') :
    st'.out.forces = turnedForces Q st.out.forces := by
  rw [h.out]
  simp only [Outputs.forces, Rule.outputs, turnedForces, List.zipWith_self]
  rfl

end

end SD.Move
