import Verif.Props.SolveRenumber
import Verif.Lemmas.Progress
import Verif.Props.Step

/-!
# A stage of a simulation of reordered particles
-/

set_option autoImplicit false

namespace SD.Reorder

open Spec Cov Move

/-! ## Arrays -/

section
variable {n : ℕ} {σ : ℕ → ℕ} (h : Reorders n σ)
include h

theorem asArr_reorder {l : List Vec3} (hl : n ≤ l.length) (i : ℕ) : asArr (reorder σ l) i = asArr l (σ i) :=
  reorder_getD h hl i 0

theorem asArrM_reorder {l : List Mat3} (hl : n ≤ l.length) (i : ℕ) : asArrM (reorder σ l) i = asArrM l (σ i) :=
  reorder_getD h hl i 0

theorem blendRows_reorder {a b c d : List Vec3} (ha : a.length = n) (hb : b.length = n) (hc : c.length = n)
    (hd : d.length = n) :
    blendRows (reorder σ a) (reorder σ b) (reorder σ c) (reorder σ d) = reorder σ (blendRows a b c d) := by
  apply List.ext_getElem?
  intro i
  rw [reorder_get? h (by simp [blendRows, ha])]
  unfold blendRows
  rw [reorder_length, ha, List.getElem?_map, List.getElem?_map]
  by_cases hi : i < n
  · rw [List.getElem?_range hi, List.getElem?_range (h.lt i hi), Option.map_some, Option.map_some]
    simp only [reorder_getD h ha.ge, reorder_getD h hb.ge, reorder_getD h hc.ge, reorder_getD h hd.ge]
  · rw [h.rest i (by omega), List.getElem?_eq_none (by simpa using hi)]; rfl

theorem blendMats_reorder {a b c d : List Mat3} (ha : a.length = n) (hb : b.length = n) (hc : c.length = n)
    (hd : d.length = n) :
    blendMats (reorder σ a) (reorder σ b) (reorder σ c) (reorder σ d) = reorder σ (blendMats a b c d) := by
  apply List.ext_getElem?
  intro i
  rw [reorder_get? h (by simp [blendMats, ha])]
  unfold blendMats
  rw [reorder_length, ha, List.getElem?_map, List.getElem?_map]
  by_cases hi : i < n
  · rw [List.getElem?_range hi, List.getElem?_range (h.lt i hi), Option.map_some, Option.map_some]
    simp only [reorder_getD h ha.ge, reorder_getD h hb.ge, reorder_getD h hc.ge, reorder_getD h hd.ge]
  · rw [h.rest i (by omega), List.getElem?_eq_none (by simpa using hi)]; rfl

theorem rotation_reorder (pos new Oa : ℕ → Vec3) (rots : Rots) (dt : ℝ) :
    euler_timestep_rotation n (fun i => pos (σ i)) (fun i => rots (σ i)) (fun i => new (σ i)) (fun i => Oa (σ i)) dt
      = (euler_timestep_rotation n pos rots new Oa dt).map fun r i => r (σ i) := by
  unfold euler_timestep_rotation
  dsimp only
  have e : (∀ i < n, ∀ j, (rotate_arrow (pos (σ i)) (rots (σ i) j) (new (σ i)) (Oa (σ i)) dt).isSome = true)
      ↔ ∀ i < n, ∀ j, (rotate_arrow (pos i) (rots i j) (new i) (Oa i) dt).isSome = true := by
    constructor
    · intro g i hi j
      obtain ⟨k, hk, rfl⟩ := h.onto hi
      exact g k hk j
    · exact fun g i hi j => g _ (h.lt i hi) j
  by_cases g : ∀ i < n, ∀ j, (rotate_arrow (pos i) (rots i j) (new i) (Oa i) dt).isSome = true
  · rw [if_pos (e.mpr g), if_pos g, Option.map_some]
    congr 1
    funext i j
    simp only [h.lt_iff]
  · rw [if_neg (fun g' => g (e.mp g')), if_neg g]; rfl

theorem wrong_reorder (e : Bool) (dx : ℕ → Vec3) (ep : Bool) :
    did_something_go_wrong_with_dumbells e n (fun i => dx (σ i)) ep
      = did_something_go_wrong_with_dumbells e n dx ep := by
  rw [Bool.eq_iff_iff, C34_flag, C34_flag]
  refine or_congr Iff.rfl (and_congr Iff.rfl ⟨?_, ?_⟩)
  · rintro ⟨i, hi, g⟩
    exact ⟨_, h.lt i hi, g⟩
  · rintro ⟨i, hi, g⟩
    obtain ⟨k, hk, rfl⟩ := h.onto hi
    exact ⟨k, hk, g⟩

end

/-! ## The stage -/

/-- Two cached matrices that belong to a configuration and the reordered one, the first with the property `K`. -/
structure CacheReordered (Ns Nd : ℕ) (σ τ : ℕ → ℕ) (K : NDMat → Prop) (C C' : NDMat) : Prop where
  symm : ∀ i j, C.get i j = C.get j i
  dims : C.rows = 11 * Ns + 6 * Nd ∧ C.cols = 11 * Ns + 6 * Nd
  dims' : C'.rows = 11 * Ns + 6 * Nd ∧ C'.cols = 11 * Ns + 6 * Nd
  renum : ∀ v v', GrandRenumbered Ns Nd σ τ v v' →
    GrandRenumbered Ns Nd σ τ (mulVec (11 * Ns + 6 * Nd) C.get v) (mulVec (11 * Ns + 6 * Nd) C'.get v')
  keep : K C

/-- What a stage with reordered particles gives. -/
structure ReorderedStage (σ τ : ℕ → ℕ) (K : NDMat → Prop) (Ns Nd : ℕ) (st st' : Stage) : Prop where
  out : st'.out = reorderOutputs σ τ st.out
  U : st'.U = st.U
  O : st'.O = st.O
  centre : st'.centre = st.centre
  first : 0 < Nd → (reorder σ st.out.Ea).headD 0 = st.out.Ea.headD 0
  Fa : st.out.Fa.length = Ns
  Sa : st.out.Sa.length = Ns
  Fb : st.out.Fb.length = Nd
  DFb : st.out.DFb.length = Nd
  Ua : st.out.Ua.length = Ns
  Oa : st.out.Oa.length = Ns
  Ub : st.out.Ub.length = Nd
  HalfDUb : st.out.HalfDUb.length = Nd
  cache : CacheReordered Ns Nd σ τ K st.cache st'.cache

/-- What is asked of every configuration that the simulation visits. -/
structure Orderly (W : World) (S : Settings) (K : NDMat → Prop) (c : Config) : Prop where
  sensible : Sensible c.P
  tabulated : Tabulated W.table.lam c.P S.cutoff_factor
  balanced : TableBalanced W.table c.P
  allowed : formAllowed S.input_form c.P.Ns
  inputs : ∀ f dt v r u, W.input_ftsuoe c f dt v r = some u → Sized c.P.Ns c.P.Nd u.inp ∧ Traceless u.inp
  serves : Serves W S K c

section
variable {σ τ : ℕ → ℕ} {W W' : World} {S : Settings} {K : NDMat → Prop}

theorem reordered_outputs {form : InputForm} {Ns Nd : ℕ} {R R' : NDMat} {x : Inputs} {p q : Outputs}
    (hp : solveForm form false Ns Nd R x = some p) (hq : solveForm form false Ns Nd R' (reorderInputs σ τ x) = some q)
    (h : SameMotion Ns (reorderOutputs σ τ p) q) : q = reorderOutputs σ τ p := by
  have e : q.Ea = (reorderOutputs σ τ p).Ea := by
    have a := solve_strains hp
    have b := solve_strains hq
    by_cases hc : form = .fts ∧ 0 < Ns
    · rw [if_pos hc] at a b
      have := h.Ea
      rw [List.take_of_length_le (by simp [reorderOutputs, a]), List.take_of_length_le (by omega)] at this
      exact this.symm
    · rw [if_neg hc] at a b
      have a' := floats33L_num a
      have b' := floats33L_num b
      rw [show (reorderInputs σ τ x).Ea = reorder σ x.Ea from rfl, a', reorder_map] at b'
      exact (List.map_injective_iff.mpr (fun a b h => num33_inj h) b').symm
  cases q
  simp only [reorderOutputs] at e ⊢
  simp only [reorderOutputs] at h
  have := h.Fa; have := h.Ta; have := h.Sa; have := h.Fb; have := h.DFb; have := h.Ua; have := h.Oa; have := h.Ub
  have := h.HalfDUb
  simp_all

theorem head_reorder {l : List Mat3} (h : σ 0 = 0 ∨ ∀ a ∈ l, ∀ b ∈ l, a = b) : (reorder σ l).headD 0 = l.headD 0 := by
  cases l with
  | nil => rfl
  | cons a l =>
    have e : (reorder σ (a :: l)).headD 0 = (a :: l).getD (σ 0) a := by simp [reorder, List.mapIdx_cons]
    rw [e]
    rcases h with h | h
    · rw [h]; rfl
    · by_cases hs : σ 0 < (a :: l).length
      · rw [List.getD_eq_getElem _ _ hs]
        exact h _ (List.getElem_mem hs) _ (by simp)
      · rw [List.getD_eq_default _ _ (by omega)]; rfl

theorem stage_reordered {Ns Nd : ℕ} (hσ : Reorders Ns σ) (hτ : Reorders Nd τ)
    (hW : ReorderedWorld S.input_form Ns Nd σ τ W W') {c : Config} (c1 : c.P.Ns = Ns) (c2 : c.P.Nd = Nd) {f : ℝ}
    {last last' : NDMat} {reg : Bool} {lv : Vel} {st : Stage} (hk : 0 < S.cutoff_factor) (hc : Orderly W S K c)
    (hl : S.use_drag_Minfinity = false → reg = false → CacheReordered Ns Nd σ τ K last last')
    (h : generate_output_FTSUOE W S c f last reg lv = some st) :
    ∃ st', generate_output_FTSUOE W' S (reorderConfig σ τ c) f last' reg (reorderVel σ τ lv) = some st' ∧
      ReorderedStage σ τ K Ns Nd st st' := by
  subst c1 c2
  obtain ⟨u, R, u2, h1, h2, h3, h4, h5, e1, e2, e3, -, -⟩ := output_some h
  obtain ⟨u', g1, m1⟩ := hW.input c f S.timestep lv none none u rfl rfl rfl h1
  have np : ∀ {u u' : UserInput}, ReorderedInput S.input_form c.P.Nd σ τ u u' →
      ¬ isPeriodic u.bl u.tr ∧ ¬ isPeriodic u'.bl u'.tr := by
    intro u u' m
    unfold isPeriodic
    rw [m.unbounded, m.unbounded']
    exact ⟨fun h => h fun k => sub_self _, fun h => h fun k => sub_self _⟩
  have hG : generate_grand_resistance_matrix W.table c.P last reg S.cutoff_factor S.use_drag_Minfinity
      S.use_Minfinity_only u.mu S.bead_bead_interactions = some (R, st.cache) := by
    unfold stageResistance at h2
    rwa [if_neg (np m1).1] at h2
  obtain ⟨R1, C1, hG', sR, sC⟩ := hc.serves h1 (fun a b => (hl a b).keep)
  obtain ⟨rfl, rfl⟩ : R = R1 ∧ st.cache = C1 := Prod.ext_iff.mp (Option.some.inj (hG.symm.trans hG'))
  obtain ⟨h6, back⟩ := solve_extract h5
  -- the inputs that are solved
  have hu2 : ∃ f dt lv r, W.input_ftsuoe c f dt lv r = some u2 := by
    by_cases he : S.input_form = .fte
    · obtain ⟨R', -, h⟩ := h4 he
      exact ⟨_, _, _, _, h⟩
    · rw [h3 he]; exact ⟨_, _, _, _, h1⟩
  obtain ⟨_, _, _, _, hu2⟩ := hu2
  obtain ⟨sz, tl⟩ := hc.inputs _ _ _ _ _ hu2
  obtain ⟨_, -, m2⟩ := hW.input c _ _ _ _ _ u2 rfl rfl rfl hu2
  obtain ⟨R', C', k1, q, k2, k3⟩ := C89_renumber (last' := last') hc.sensible hk hc.tabulated hc.balanced hσ hτ
    (fun a b => ⟨(hl a b).symm, (hl a b).dims, (hl a b).dims', (hl a b).renum⟩) hG sR.pos hc.allowed sz tl m2.fixed h6
  obtain ⟨R2, C2, k4, k5⟩ := C18_grand_of_reciprocal (last' := last') hc.sensible hk hc.tabulated hc.balanced hσ.lt
    hτ.lt hσ.inj hτ.inj (fun a b => (hl a b).renum) hG
  obtain ⟨rfl, rfl⟩ : R' = R2 ∧ C' = C2 := by
    rw [k1] at k4
    exact Prod.ext_iff.mp (Option.some.inj k4)
  obtain ⟨-, d1⟩ := grand_dims hc.sensible hk hc.tabulated (fun a b => (hl a b).dims) hG
  obtain ⟨-, d2⟩ := grand_dims (relabel_sensible hc.sensible hσ.lt hτ.lt hσ.inj hτ.inj) hk
    (tabulated_relabel hσ hτ hc.tabulated) (fun a b => (hl a b).dims') k1
  have sy := fun i j => (C25_symmetric hc.sensible hk hc.tabulated (fun a b => (hl a b).symm) hG i j).2
  have ho := reordered_outputs h6 k2 k3
  obtain ⟨so, -⟩ := solve_echo hc.allowed sz sR.rows (fun i _ j _ => sR.symm i j) h6
  -- the second call of the input function
  have second : ∃ u2', (if S.input_form = .fte then do
        let R' ← fts_to_fte_matrix c.P.Ns c.P.Nd R'
        W'.input_ftsuoe (reorderConfig σ τ c) f S.timestep (reorderVel σ τ lv) (some R')
      else some u' : Option UserInput) = some u2' ∧ ReorderedInput S.input_form c.P.Nd σ τ u2 u2' := by
    by_cases he : S.input_form = .fte
    · obtain ⟨R1, -, h⟩ := h4 he
      rw [he] at k2
      simp only [solveForm, solveFTE] at k2
      obtain ⟨R3, b1, -⟩ := Option.bind_eq_some_iff.mp k2
      obtain ⟨u2', b2, b3⟩ := hW.input c f S.timestep lv (some R1) (some R3) u2 rfl rfl rfl h
      refine ⟨u2', ?_, b3⟩
      rw [if_pos he, b1]
      exact b2
    · rw [if_neg he, h3 he]
      exact ⟨u', rfl, m1⟩
  obtain ⟨u2', b1, b2⟩ := second
  refine ⟨{ out := q, cache := C', U := u2'.U, O := u2'.O, centre := u2'.centre, Ot := u2'.Ot, Et := u2'.Et }, ?_,
    ⟨ho, by rw [e1]; exact b2.U, by rw [e2]; exact b2.O, by rw [e3]; exact b2.centre, fun hd => head_reorder ?_,
      so.Fa, so.Sa, so.Fb, so.DFb, so.Ua, so.Oa, so.Ub, so.HalfDUb, ⟨sy, d1, d2, fun v v' hv => (k5 v v' hv).2, sC⟩⟩⟩
  · have hR : stageResistance W' S (reorderConfig σ τ c) last' reg u' = some (R', C') := by
      unfold stageResistance
      rw [if_neg (np m1).2, hW.table, m1.mu]
      exact k1
    unfold generate_output_FTSUOE
    rw [g1, Option.bind_eq_bind, Option.bind_some, hR, Option.bind_eq_bind, Option.bind_some]
    show (_ : Option UserInput) >>= _ = _
    erw [b1]
    rw [Option.bind_eq_bind, Option.bind_some, b2.inp]
    show (solveForm S.input_form S.extract c.P.Ns c.P.Nd R' _).bind _ = _
    rw [back k2]
    rfl
  · refine (b2.first hd).imp id fun hn a ha b hb => ?_
    have hE := solve_strains h6
    rw [if_neg fun h => hn.1 h.1] at hE
    have hE := floats33L_num hE
    refine num33_inj (hn.2 _ ?_ _ ?_) <;> rw [hE]
    · exact List.mem_map_of_mem ha
    · exact List.mem_map_of_mem hb

/-! ## Velocities of a stage -/

theorem vel_reordered {c : Config} (hσ : Reorders c.P.Ns σ) (hτ : Reorders c.P.Nd τ) {st st' : Stage}
    (hst : ReorderedStage σ τ K c.P.Ns c.P.Nd st st') (Ed : List Mat3)
    (hE : 0 < c.P.Nd → (reorder σ Ed).headD 0 = Ed.headD 0) :
    stageVel (reorderConfig σ τ c) st' (reorder σ Ed) = (stageVel c st Ed).map (reorderVel σ τ) := by
  unfold stageVel
  have hlen : st'.out.Ea.length = st.out.Ea.length := by rw [hst.out]; simp [reorderOutputs]
  have hnil : reorder σ Ed = [] ↔ Ed = [] := by
    rw [← List.length_eq_zero_iff, reorder_length, List.length_eq_zero_iff]
  show (if 0 < c.P.Ns ∧ st'.out.Ea.length < c.P.Ns then none
    else if 0 < c.P.Nd ∧ reorder σ Ed = [] then none else _) = _
  simp only [hlen, hnil]
  by_cases h1 : 0 < c.P.Ns ∧ st.out.Ea.length < c.P.Ns
  · rw [if_pos h1, if_pos h1]; rfl
  rw [if_neg h1, if_neg h1]
  by_cases h2 : 0 < c.P.Nd ∧ Ed = []
  · rw [if_pos h2, if_pos h2]; rfl
  rw [if_neg h2, if_neg h2, Option.map_some]
  congr 1
  simp only [reorderVel, Vel.mk.injEq]
  rw [hst.out, hst.U, hst.O, hst.centre]
  have zs : ∀ (p : Prop) [Decidable p] (ρ : ℕ → ℕ) (x y : ℕ → Vec3), (p → ∀ i, x i = y (ρ i)) →
      (if p then x else fun _ _ => 0) = fun i => (if p then y else fun _ _ => 0) (ρ i) := by
    intro p _ ρ x y h
    by_cases hp : p
    · rw [if_pos hp, if_pos hp]; exact funext (h hp)
    · rw [if_neg hp, if_neg hp]
  refine ⟨zs _ _ _ _ fun hp i => ?_, zs _ _ _ _ fun hp i => ?_, zs _ _ _ _ fun hp i => ?_, zs _ _ _ _ fun hp i => ?_⟩
  · have hl : c.P.Ns ≤ st.out.Ea.length := by
      by_contra h
      exact h1 ⟨hp, by omega⟩
    simp only [add_background_flow_spheres, reorderOutputs, asArr_reorder hσ hst.Ua.ge, asArrM_reorder hσ hl]
    rfl
  · simp only [add_background_flow_dumbbells, reorderOutputs, asArr_reorder hτ hst.Ub.ge, hE hp]
    rfl
  · simp only [add_background_flow_dumbbells, reorderOutputs, asArr_reorder hτ hst.HalfDUb.ge, hE hp]
    rfl
  · simp only [add_background_flow_spheres, reorderOutputs, asArr_reorder hσ hst.Oa.ge]

theorem strains_reordered {Ns Nd : ℕ} {st st' : Stage} (h : ReorderedStage σ τ K Ns Nd st st') :
    st'.out.Ea = reorder σ st.out.Ea := by rw [h.out]; rfl

theorem forces_reordered {Ns Nd : ℕ} {st st' : Stage} (h : ReorderedStage σ τ K Ns Nd st st') :
    st'.out.forces = reorderForces σ τ st.out.forces := by rw [h.out]; rfl

end

end SD.Reorder
