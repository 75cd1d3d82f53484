import Verif.Lemmas.LoneRun

/-!
# A complete run with one dumbbell

A dumbbell with beads of radius 1/2 in the drag approximation, in a steady background flow, with a constant force
and a constant force difference. Its runs succeed for any length with the Euler and Runge-Kutta schemes. They
serve as examples.
-/

set_option autoImplicit false

namespace SD

open Spec

/-- The inputs for one dumbbell with the force `F` and the force difference `D`. -/
def dumbInputs (F D : Vec3) (E : Mat3) : Inputs where
  Fa := []
  Ta := []
  Sa := []
  Fb := [num3 F]
  DFb := [num3 D]
  Ua := []
  Ea := [num33 E]
  Ub := [blank]
  HalfDUb := [blank]

/-- What the input function returns. -/
def dumbUser (F D U O c : Vec3) (E : Mat3) : UserInput where
  inp := dumbInputs F D E
  U := U
  O := O
  centre := c
  Ot := 0
  Et := 0
  bl := 0
  tr := 0
  mu := 1

/-- One dumbbell in the flow `U + O × (x - c) + E (x - c)`. -/
noncomputable def dumbWorld (F D U O c : Vec3) (E : Mat3) : World where
  table := demoT
  input_ftsuoe := fun _ _ _ _ _ => some (dumbUser F D U O c E)
  Minfinity_periodic := fun _ _ _ _ _ _ => NDMat.zeros 1 1
  R2Bexact_periodic := fun _ _ _ _ _ _ _ => none

/-- The conditions on the settings for these runs. -/
structure DumbSettings (S : Settings) : Prop where
  form : S.input_form = .fts
  ext : S.extract = false
  drag : S.use_drag_Minfinity = true
  only : S.use_Minfinity_only = true
  scheme : S.scheme = .euler ∨ S.scheme = .rk4
  every : S.invert_m_every ≠ 0
  pos : S.save_positions_every = 0
  force : S.save_forces_every = 0

/-- One dumbbell with beads of radius 1/2. -/
structure IsDumb (c : Config) : Prop where
  Ns : c.P.Ns = 0
  Nd : c.P.Nd = 1
  size : c.P.dumbSize 0 = 1 / 2

section
variable {F D U O ctr : Vec3} {E : Mat3} {S : Settings}

theorem dumb_sized : Sized 0 1 (dumbInputs F D E) := ⟨rfl, rfl, rfl, rfl, rfl, rfl, rfl, rfl⟩

theorem dumb_complete : Complete .fts 0 1 (dumbInputs F D E) := by
  refine ⟨?_, ?_, ?_, ?_, ?_, ?_⟩ <;> simp [dumbInputs, Given3, Given33, num3, num33]

theorem dumb_resistance (hS : DumbSettings S) {c : Config} (hc : IsDumb c) (last : NDMat) (reg : Bool)
    {u : UserInput} (hb : u.bl = 0) (ht : u.tr = 0) (hm : u.mu = 1) :
    ∃ R, stageResistance (dumbWorld F D U O ctr E) S c last reg u = some (R, R) ∧ R.rows = 6 ∧ R.cols = 6 ∧
      ∀ i < 6, ∀ j < 6, R.get i j = if i = j then 1 else 0 := by
  unfold stageResistance
  rw [hb, ht, if_neg not_periodic_zero, hS.drag, hS.only, hm]
  refine ⟨NDMat.smul 1 (npDiag (dragDiagonal c.P)), rfl, ?_, ?_, fun i hi j hj => ?_⟩
  · simp [NDMat.smul, npDiag, dragDiagonal, hc.Ns, hc.Nd]
  · simp [NDMat.smul, npDiag, dragDiagonal, hc.Ns, hc.Nd]
  · have hl : dragDiagonal c.P = [1, 1, 1, 1, 1, 1] := by
      unfold dragDiagonal
      rw [hc.Ns, hc.Nd]
      simp [List.range_succ, hc.size]
    simp only [NDMat.smul, npDiag, hl, one_mul]
    by_cases e : i = j
    · rw [if_pos e, if_pos e]
      interval_cases i <;> rfl
    · rw [if_neg e, if_neg e]

theorem unit_posDef {R : NDMat} (h : ∀ i < 6, ∀ j < 6, R.get i j = if i = j then 1 else 0) :
    PosDef R.get 6 := by
  rintro w ⟨i, hi, hw⟩
  have e : ∀ i ∈ Finset.range 6, ∑ j ∈ Finset.range 6, w i * R.get i j * w j = w i ^ 2 := by
    intro i hi
    rw [Finset.sum_eq_single i (fun j hj hne => by
      rw [h i (Finset.mem_range.mp hi) j (Finset.mem_range.mp hj), if_neg (Ne.symm hne)]; ring)
      (fun hn => absurd hi hn), h i (Finset.mem_range.mp hi) i (Finset.mem_range.mp hi), if_pos rfl]
    ring
  rw [Finset.sum_congr rfl e]
  exact Finset.sum_pos' (fun i _ => sq_nonneg _) ⟨i, Finset.mem_range.mpr hi, by positivity⟩

theorem dumb_stage (hS : DumbSettings S) {c : Config} (hc : IsDumb c) (t : ℝ) (last : NDMat) (reg : Bool)
    (lv : Vel) :
    ∃ st, generate_output_FTSUOE (dumbWorld F D U O ctr E) S c t last reg lv = some st ∧
      st.out.Ub = [F] ∧ st.out.HalfDUb = [D] ∧ st.out.Ea = [E] ∧ st.U = U ∧ st.O = O ∧ st.centre = ctr := by
  obtain ⟨R, hR, hr, hcl, hg⟩ := dumb_resistance (F := F) (D := D) (U := U) (O := O) (ctr := ctr) (E := E) hS hc
    last reg (u := dumbUser F D U O ctr E) rfl rfl rfl
  obtain ⟨out, ho⟩ := fts_exists (Ns := 0) (Nd := 1) (R := R) (inp := dumbInputs F D E) dumb_sized hr hcl
    (unit_posDef hg) dumb_complete
  obtain ⟨hs, ⟨-, -, -, h4, h5⟩, -⟩ := C05_fts_correct dumb_sized hr ho
  have hEa : out.Ea = [E] := by
    have ho := ho
    unfold solveFTS at ho
    obtain ⟨_, -, ho⟩ := Option.bind_eq_some_iff.mp ho
    obtain ⟨_, -, ho⟩ := Option.bind_eq_some_iff.mp ho
    dsimp only at ho
    obtain ⟨_, -, ho⟩ := Option.bind_eq_some_iff.mp ho
    obtain ⟨_, -, ho⟩ := Option.bind_eq_some_iff.mp ho
    obtain ⟨_, -, ho⟩ := Option.bind_eq_some_iff.mp ho
    obtain ⟨_, -, ho⟩ := Option.bind_eq_some_iff.mp ho
    obtain ⟨_, -, ho⟩ := Option.bind_eq_some_iff.mp ho
    obtain ⟨Ea, he, ho⟩ := Option.bind_eq_some_iff.mp ho
    obtain rfl := Option.some.inj ho
    rw [if_pos rfl] at he
    have h33 := floats33L_num he
    show Ea = [E]
    rcases Ea with _ | ⟨a, l⟩
    · simp [dumbInputs] at h33
    · simp only [dumbInputs, List.map_cons, List.cons.injEq] at h33
      obtain ⟨h3, h4⟩ := h33
      obtain rfl : l = [] := by simpa using h4.symm
      congr 1
      funext i j
      have := congrFun (congrFun h3 i) j
      simp only [num33, Option.some.injEq] at this
      exact this.symm
  have single : ∀ {x : Vec3} {l : List Vec3}, [num3 x] = l.map num3 → l = [x] := by
    intro x l h
    rcases l with _ | ⟨a, l⟩
    · simp at h
    · simp only [List.map_cons, List.cons.injEq] at h
      obtain ⟨h3, h4⟩ := h
      obtain rfl : l = [] := by simpa using h4.symm
      congr 1
      funext i
      have := congrFun h3 i
      simp only [num3, Option.some.injEq] at this
      exact this.symm
  have hF := single h4
  have hD := single h5
  have hrel : ∀ i < 6, pack 0 1 out.Ua out.Oa out.Ea out.Ub out.HalfDUb i
      = pack 0 1 out.Fa out.Ta out.Sa out.Fb out.DFb i := by
    intro i hi
    have := hs.rel i (by omega)
    rw [← this, Finset.sum_eq_single i (fun j hj hne => by
      rw [hg i hi j (Finset.mem_range.mp hj), if_neg (Ne.symm hne), zero_mul])
      (fun hn => absurd (Finset.mem_range.mpr hi) hn), hg i hi i hi, if_pos rfl, one_mul]
  obtain ⟨ub, hub⟩ := List.length_eq_one_iff.mp hs.Ub
  obtain ⟨hd, hhd⟩ := List.length_eq_one_iff.mp hs.HalfDUb
  rw [hub, hhd, hF, hD] at hrel
  refine ⟨⟨out, R, U, O, ctr, 0, 0⟩, ?_, ?_, ?_, hEa, rfl, rfl, rfl⟩
  · unfold generate_output_FTSUOE
    simp only [dumbWorld, Option.bind_eq_bind, Option.bind_some]
    simp only [dumbWorld] at hR
    rw [hR]
    simp only [Option.bind_some]
    rw [hS.form, if_neg (by decide), Option.bind_some, hS.ext, hc.Ns, hc.Nd]
    show (solveFTS 0 1 R (dumbInputs F D E)).bind _ = _
    rw [ho]
    rfl
  · show out.Ub = [F]
    rw [hub]
    congr 1
    funext k
    have := hrel k (by omega)
    fin_cases k <;> simpa [pack] using this
  · show out.HalfDUb = [D]
    rw [hhd]
    congr 1
    funext k
    have := hrel (3 + k) (by omega)
    fin_cases k <;> simpa [pack] using this

theorem dumb_vel {c : Config} (hc : IsDumb c) {st : Stage} {Ed : List Mat3} (h : Ed = [E]) :
    ∃ v, stageVel c st Ed = some v := by
  unfold stageVel
  rw [if_neg (by rw [hc.Ns]; simp), if_neg (by rw [h]; simp)]
  exact ⟨_, rfl⟩

theorem dumb_move (S : Settings) {c : Config} (hc : IsDumb c) (st : Stage) (v : Vel) (dt : ℝ)
    (e : Bool) : ∃ c' e', rk4Move S 0 0 c st v dt e = some (c', e') ∧ IsDumb c' := by
  have hNs : ¬ 0 < c.P.Ns := by rw [hc.Ns]; omega
  have hNd : 0 < c.P.Nd := by rw [hc.Nd]; omega
  refine ⟨⟨{ c.P with dumbPos := euler_timestep c.P.dumbPos v.Ub dt,
                      dumbDx := euler_timestep c.P.dumbDx (fun i k => 2 * v.HalfDUb i k) dt }, c.rots⟩,
    did_something_go_wrong_with_dumbells e c.P.Nd (euler_timestep c.P.dumbDx (fun i k => 2 * v.HalfDUb i k) dt)
      S.explosion_protection, ?_, hc.Ns, hc.Nd, hc.size⟩
  unfold rk4Move
  rw [if_neg hNs, if_pos hNd]
  dsimp only
  rw [(wrapIf_nonperiodic not_periodic_zero).mpr rfl]
  rfl

theorem dumb_step (hS : DumbSettings S) {c : Config} (hc : IsDumb c) (f : ℕ) (cache : NDMat) (reg : Bool)
    (lv : Vel) :
    ∃ r, timeStep (dumbWorld F D U O ctr E) S 0 0 f c lv cache reg = some r ∧ IsDumb r.new := by
  have hNs : ¬ 0 < c.P.Ns := by rw [hc.Ns]; omega
  have hNd : 0 < c.P.Nd := by rw [hc.Nd]; omega
  obtain ⟨st, hst, -, -, hE, -⟩ := dumb_stage (F := F) (D := D) (U := U) (O := O) (ctr := ctr) (E := E) hS hc
    f cache reg lv
  obtain ⟨v, hv⟩ := dumb_vel (st := st) hc hE
  unfold timeStep
  rcases hS.scheme with hsch | hsch
  · rw [hsch]
    dsimp only
    generalize hv' : (if S.fully_2d_problem = true then ({ v with Ua := zeroY v.Ua } : Vel) else v) = v'
    unfold stepEulerAb2
    refine ⟨_, Option.bind_eq_some_iff.mpr ⟨st, hst, Option.bind_eq_some_iff.mpr ⟨v, hv,
      Option.bind_eq_some_iff.mpr ⟨(c.P.spherePos, c.rots), if_neg hNs, Option.bind_eq_some_iff.mpr
      ⟨(euler_timestep c.P.dumbPos v'.Ub S.timestep,
        euler_timestep c.P.dumbDx (fun i k => 2 * v'.HalfDUb i k) S.timestep,
        did_something_go_wrong_with_dumbells false c.P.Nd
          (euler_timestep c.P.dumbDx (fun i k => 2 * v'.HalfDUb i k) S.timestep) S.explosion_protection),
        ?_, rfl⟩⟩⟩⟩, hc.Ns, hc.Nd, hc.size⟩
    · rw [if_pos hNd, if_pos hsch, hv']
      dsimp only
      rw [(wrapIf_nonperiodic not_periodic_zero).mpr rfl]
      rfl
  · rw [hsch]
    dsimp only
    obtain ⟨c1, e1, hm1, hc1⟩ := dumb_move S hc st v (S.timestep / 2) false
    obtain ⟨st2, a2, -, -, b2, -⟩ := dumb_stage (F := F) (D := D) (U := U) (O := O) (ctr := ctr) (E := E) hS hc1
      (f + 0.5) st.cache (reg && S.rk4_each_stage) lv
    obtain ⟨v2, hv2⟩ := dumb_vel (st := st2) hc hE
    obtain ⟨c2, e2, hm2, hc2⟩ := dumb_move S hc st2 v2 (S.timestep / 2) e1
    obtain ⟨st3, a3, -, -, b3, -⟩ := dumb_stage (F := F) (D := D) (U := U) (O := O) (ctr := ctr) (E := E) hS hc2
      (f + 0.5) st.cache (reg && S.rk4_each_stage) lv
    obtain ⟨v3, hv3⟩ := dumb_vel (st := st3) hc b3
    obtain ⟨c3, e3, hm3, hc3⟩ := dumb_move S hc st3 v3 S.timestep e2
    obtain ⟨st4, a4, -, -, b4, -⟩ := dumb_stage (F := F) (D := D) (U := U) (O := O) (ctr := ctr) (E := E) hS hc3
      (f + 1) st.cache (reg && S.rk4_each_stage) lv
    obtain ⟨v4, hv4⟩ := dumb_vel (st := st4) hc b4
    unfold stepRk4
    refine ⟨_, Option.bind_eq_some_iff.mpr ⟨st, hst, Option.bind_eq_some_iff.mpr ⟨v, hv,
      Option.bind_eq_some_iff.mpr ⟨(c1, e1), hm1, Option.bind_eq_some_iff.mpr ⟨st2, a2,
      Option.bind_eq_some_iff.mpr ⟨v2, hv2, Option.bind_eq_some_iff.mpr ⟨(c2, e2), hm2,
      Option.bind_eq_some_iff.mpr ⟨st3, a3, Option.bind_eq_some_iff.mpr ⟨v3, hv3,
      Option.bind_eq_some_iff.mpr ⟨(c3, e3), hm3, Option.bind_eq_some_iff.mpr ⟨st4, a4,
      Option.bind_eq_some_iff.mpr ⟨v4, hv4,
      Option.bind_eq_some_iff.mpr ⟨(c.P.spherePos, c.rots), if_neg hNs,
      Option.bind_eq_some_iff.mpr
      ⟨(euler_timestep c.P.dumbPos (blend v.Ub v2.Ub v3.Ub v4.Ub) S.timestep, euler_timestep c.P.dumbDx
        (fun i k => 2 * blend v.HalfDUb v2.HalfDUb v3.HalfDUb v4.HalfDUb i k) S.timestep,
        did_something_go_wrong_with_dumbells e3 c.P.Nd (euler_timestep c.P.dumbDx
          (fun i k => 2 * blend v.HalfDUb v2.HalfDUb v3.HalfDUb v4.HalfDUb i k) S.timestep)
          S.explosion_protection), ?_, rfl⟩⟩⟩⟩⟩⟩⟩⟩⟩⟩⟩⟩⟩, hc.Ns, hc.Nd, hc.size⟩
    · rw [if_pos hNd]
      dsimp only
      rw [(wrapIf_nonperiodic not_periodic_zero).mpr rfl]
      rfl

/-- A frame of the dumbbell's run. -/
theorem dumb_frame (hS : DumbSettings S) {s : State} (hc : IsDumb s.posdata) (he : s.error = false) (f : ℕ) :
    ∃ s', generate_frame (dumbWorld F D U O ctr E) S 0 0 f s = some s' ∧ IsDumb s'.posdata := by
  obtain ⟨r, hr, hd⟩ := dumb_step (F := F) (D := D) (U := U) (O := O) (ctr := ctr) (E := E) hS hc f (cacheIn S f s)
    (regen S f) (velIn S f s)
  rw [frame_eq he hS.every]
  unfold frameStep
  rw [hr, Option.bind_some]
  unfold savePositions saveForces saveTemp
  rw [hS.pos, hS.force, if_neg (by simp), Option.bind_some, if_neg (by simp), Option.bind_some, if_neg (by simp)]
  exact ⟨_, rfl, hd⟩

end

/-- A dumbbell with the displacement `(4, 0, 0)`. -/
noncomputable def dumbStart : Config where
  P := { Ns := 0, Nd := 1, sphereSize := fun _ => 0, spherePos := fun _ => 0, dumbSize := fun _ => 1 / 2,
         dumbPos := fun _ => 0, dumbDx := fun _ => ![4, 0, 0] }
  rots := fun _ _ => 0

theorem dumbStart_isDumb : IsDumb dumbStart := ⟨rfl, rfl, rfl⟩

/-- Settings for the examples with a dumbbell. -/
noncomputable def dumbSettings (sch : Scheme) (protect : Bool) : Settings where
  fully_2d_problem := false
  timestep := 1 / 10
  num_frames := 7
  input_form := .fts
  invert_m_every := 1
  cutoff_factor := 2
  scheme := sch
  rk4_each_stage := true
  bead_bead_interactions := true
  explosion_protection := protect
  start_saving := 0
  save_positions_every := 0
  save_forces_every := 0
  save_to_temp := false
  save_to_temp_every := 5
  extract := false
  use_drag_Minfinity := true
  use_Minfinity_only := true
  start := 0

theorem dumbSettings_ok {sch : Scheme} (h : sch = .euler ∨ sch = .rk4) (p : Bool) :
    DumbSettings (dumbSettings sch p) :=
  ⟨rfl, rfl, rfl, rfl, h, by simp [dumbSettings], rfl, rfl⟩

end SD
