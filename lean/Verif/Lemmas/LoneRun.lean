import Verif.Props.GrandResistance
import Verif.Props.Solve
import Verif.Props.Motion
import Verif.Lemmas.Frame

/-!
# A complete run with one sphere

A sphere of radius 3 in a steady background flow, moving relative to it with a prescribed velocity that may
depend on time. Its runs succeed for any length, scheme and refresh interval. They serve as examples.
-/

set_option autoImplicit false

namespace SD

open Spec

/-- The inputs for one sphere with the prescribed velocity `V`. -/
def loneInputs (V : Vec3) (E : Mat3) : Inputs where
  Fa := [blank]
  Ta := [num3 0]
  Sa := [num33 0]
  Fb := []
  DFb := []
  Ua := [num3 V]
  Ea := [num33 E]
  Ub := []
  HalfDUb := []

/-- What the input function returns. -/
def loneUser (V : Vec3) (U O c : Vec3) (E : Mat3) : UserInput where
  inp := loneInputs V E
  U := U
  O := O
  centre := c
  Ot := 0
  Et := 0
  bl := 0
  tr := 0
  mu := 1

/-- One sphere in the flow `U + O × (x - c) + E (x - c)`. -/
noncomputable def loneWorld (V : ℝ → Vec3) (U O c : Vec3) (E : Mat3) : World where
  table := demoT
  input_ftsuoe := fun _ t _ _ _ => some (loneUser (V t) U O c E)
  Minfinity_periodic := fun _ _ _ _ _ _ => NDMat.zeros 1 1
  R2Bexact_periodic := fun _ _ _ _ _ _ _ => none

/-- The conditions on the settings for these runs. -/
structure LoneSettings (S : Settings) : Prop where
  form : S.input_form = .ufte
  ext : S.extract = false
  drag : S.use_drag_Minfinity = false
  only : S.use_Minfinity_only = true
  cutoff : 0 < S.cutoff_factor
  scheme : S.scheme ≠ .other
  every : S.invert_m_every ≠ 0

/-- One sphere of radius 3 with arrows of nonzero length. -/
structure IsLone (c : Config) : Prop where
  Ns : c.P.Ns = 1
  Nd : c.P.Nd = 0
  size : c.P.sphereSize 0 = 3
  arrows : ∀ i < c.P.Ns, ∀ j, c.rots i j ≠ c.P.spherePos i

/-- The resistance matrix of the sphere. -/
structure GoodR (R : NDMat) : Prop where
  rows : R.rows = 11
  cols : R.cols = 11
  act : ∀ (v : ℕ → ℝ) (c : Comp), mulVec 11 R.get v (row 1 0 c) = stokes 1 3 c * v (row 1 0 c)

theorem lone_surj (i : ℕ) (hi : i < 11) : ∃ c, row 1 0 c = i := by
  obtain ⟨u, c, h, e⟩ := row_surj (Ns := 1) (Nd := 0) (i := i) (by omega)
  have : u = 0 := by cases c <;> simp only [HasRow] at h <;> omega
  subst this
  exact ⟨c, e⟩

theorem lone_stokes_pos (c : Comp) : 0 < stokes 1 3 c := by
  have := Real.pi_pos
  cases c <;> simp only [stokes] <;> positivity

theorem GoodR.act' {R : NDMat} (h : GoodR R) {i : ℕ} (hi : i < 11) :
    ∃ s > 0, ∀ v : ℕ → ℝ, mulVec 11 R.get v i = s * v i := by
  obtain ⟨c, rfl⟩ := lone_surj i hi
  exact ⟨_, lone_stokes_pos c, fun v => h.act v c⟩

theorem GoodR.entry {R : NDMat} (h : GoodR R) {i j : ℕ} (hi : i < 11) (hj : j < 11) (hij : i ≠ j) :
    R.get i j = 0 := by
  obtain ⟨s, -, hs⟩ := h.act' hi
  have := hs fun k => if k = j then 1 else 0
  unfold mulVec at this
  dsimp only at this
  rw [if_neg hij, mul_zero, Finset.sum_eq_single j (fun b _ hb => by rw [if_neg hb, mul_zero])
    (fun hn => absurd (Finset.mem_range.mpr hj) hn)] at this
  simpa using this

theorem GoodR.symm {R : NDMat} (h : GoodR R) : Symm R.get 11 := by
  intro i hi j hj
  by_cases e : i = j
  · rw [e]
  · rw [h.entry hi hj e, h.entry hj hi (Ne.symm e)]

theorem GoodR.posDef {R : NDMat} (h : GoodR R) : PosDef R.get 11 := by
  rintro w ⟨i, hi, hw⟩
  have e : ∀ i ∈ Finset.range 11, ∑ j ∈ Finset.range 11, w i * R.get i j * w j
      = w i * mulVec 11 R.get w i := by
    intro i _
    unfold mulVec
    rw [Finset.mul_sum]
    exact Finset.sum_congr rfl fun j _ => by ring
  rw [Finset.sum_congr rfl e]
  refine Finset.sum_pos' (fun j hj => ?_) ⟨i, Finset.mem_range.mpr hi, ?_⟩
  · obtain ⟨s, hs, ha⟩ := h.act' (Finset.mem_range.mp hj)
    rw [ha]
    nlinarith [mul_self_nonneg (w j)]
  · obtain ⟨s, hs, ha⟩ := h.act' hi
    rw [ha]
    have : 0 < w i * w i := mul_self_pos.mpr hw
    nlinarith

section
variable {V : ℝ → Vec3} {U O ctr : Vec3} {E : Mat3} {S : Settings}

theorem not_periodic_zero : ¬ isPeriodic 0 0 := by simp [isPeriodic]

theorem lone_resistance (hS : LoneSettings S) {c : Config} (hc : IsLone c) {last : NDMat} {reg : Bool}
    (hl : reg = false → GoodR last) {u : UserInput} (hb : u.bl = 0) (ht : u.tr = 0) (hm : u.mu = 1) :
    ∃ R, stageResistance (loneWorld V U O ctr E) S c last reg u = some (R, R) ∧ GoodR R := by
  unfold stageResistance
  rw [hb, ht, if_neg not_periodic_zero, hS.drag, hS.only, hm]
  cases reg
  · refine ⟨last, ?_, hl rfl⟩
    unfold generate_grand_resistance_matrix
    rw [if_pos rfl, if_neg (by simp)]
    rfl
  · obtain ⟨R, C, h, hR⟩ := C19_lone_sphere (T := demoT) (P := c.P) hc.Ns hc.Nd (a := 3) (mu := 1) hc.size
      (by norm_num) (by norm_num) hS.cutoff ⟨1, by simp [demoT], by norm_num⟩ last true
      S.bead_bead_interactions
    obtain ⟨h1, -, h2⟩ := grand_some h
    obtain rfl := h2 rfl
    have hs : side c.P = 11 := by simp [side, hc.Ns, hc.Nd]
    rw [if_pos rfl, if_pos rfl] at h1
    obtain ⟨-, hr, hcl, -⟩ := NDMat.inv_some h1
    refine ⟨R, h, ?_, ?_, ?_⟩
    · rw [hr, (Minfinity_dims c.P 1 S.bead_bead_interactions).1, hs]
    · rw [hcl, (Minfinity_dims c.P 1 S.bead_bead_interactions).1, hs]
    · rw [hs] at hR; exact hR

theorem lone_sized (v : Vec3) : Sized 1 0 (loneInputs v E) := ⟨rfl, rfl, rfl, rfl, rfl, rfl, rfl, rfl⟩

theorem lone_complete (v : Vec3) : Complete .ufte 1 0 (loneInputs v E) := by
  refine ⟨1, le_rfl, ?_, ?_, ?_, ?_, ⟨by simp [loneInputs], ?_⟩, ?_, ?_⟩ <;>
    simp [loneInputs, Given3, Given33, num3, num33]

theorem lone_stage (hS : LoneSettings S) {c : Config} (hc : IsLone c) {t : ℝ} {last : NDMat} {reg : Bool}
    {lv : Vel} (hl : reg = false → GoodR last) :
    ∃ st, generate_output_FTSUOE (loneWorld V U O ctr E) S c t last reg lv = some st ∧ GoodR st.cache ∧
      st.out.Ua = [V t] ∧ st.out.Ea = [E] ∧ st.U = U ∧ st.O = O ∧ st.centre = ctr := by
  obtain ⟨R, hR, hg⟩ := lone_resistance (V := V) (U := U) (O := O) (ctr := ctr) (E := E) hS hc hl
    (u := loneUser (V t) U O ctr E) rfl rfl rfl
  obtain ⟨out, ho⟩ := C09_spd_succeeds (form := .ufte) (Ns := 1) (Nd := 0) (R := R)
    (inp := loneInputs (V t) E) ⟨by simp, by simp⟩ (lone_sized _) hg.rows hg.cols hg.symm hg.posDef
    (lone_complete _)
  obtain ⟨hs, ⟨k, hk, h1, -, -, h2, -⟩, -⟩ := C06_ufte_correct (lone_sized _) hg.rows hg.symm ho
  refine ⟨⟨out, R, U, O, ctr, 0, 0⟩, ?_, hg, ?_, ?_, rfl, rfl, rfl⟩
  · unfold generate_output_FTSUOE
    simp only [loneWorld, Option.bind_eq_bind, Option.bind_some]
    simp only [loneWorld] at hR
    rw [hR]
    simp only [Option.bind_some]
    rw [hS.form, if_neg (by decide), Option.bind_some, hS.ext, hc.Ns, hc.Nd]
    show (solveForm .ufte false 1 0 R (loneInputs (V t) E)).bind _ = _
    rw [ho]
    rfl
  · show out.Ua = [V t]
    have hl := hs.Ua
    obtain ⟨a, ha⟩ := List.length_eq_one_iff.mp hl
    rw [ha] at h1 ⊢
    interval_cases k
    · simp [loneInputs] at h1
      have := congrFun h1 0
      simp [num3, blank] at this
    · simp only [loneInputs, List.take_succ_cons, List.take_zero, List.map_cons, List.map_nil,
        Nat.sub_self, List.replicate_zero, List.append_nil, List.cons.injEq, and_true] at h1
      congr 1
      funext k
      have := congrFun h1 k
      simp only [num3, Option.some.injEq] at this
      exact this.symm
  · show out.Ea = [E]
    rcases ho : out.Ea with _ | ⟨a, l⟩
    · rw [ho] at h2; simp [loneInputs] at h2
    · rw [ho] at h2
      simp only [loneInputs, List.map_cons, List.cons.injEq] at h2
      obtain ⟨h3, h4⟩ := h2
      obtain rfl : l = [] := by simpa using h4.symm
      congr 1
      funext i j
      have := congrFun (congrFun h3 i) j
      simp only [num33, Option.some.injEq] at this
      exact this.symm

theorem lone_vel {c : Config} (hc : IsLone c) {st : Stage} {t : ℝ} (h1 : st.out.Ua = [V t])
    (h2 : st.out.Ea = [E]) (hU : st.U = U) (hO : st.O = O) (hctr : st.centre = ctr) (Ed : List Mat3) :
    ∃ v, stageVel c st Ed = some v ∧
      ∀ k, v.Ua 0 k = V t k + affineFlow U O ctr E (c.P.spherePos 0) k := by
  unfold stageVel
  rw [if_neg (by rw [h2, hc.Ns]; simp), if_neg (by rw [hc.Nd]; simp)]
  refine ⟨_, rfl, fun k => ?_⟩
  dsimp only
  rw [if_pos (by rw [hc.Ns]; omega), (C31_spheres _ _ _ _ _ _ _ _ _).1, h1, h2, hU, hO, hctr]
  rfl

theorem lone_arrows {c : Config} (hc : IsLone c) {new O' : ℕ → Vec3} {dt : ℝ} {r : Rots}
    (hr : euler_timestep_rotation c.P.Ns c.P.spherePos c.rots new O' dt = some r) :
    ∀ i < c.P.Ns, ∀ j, r i j ≠ new i := by
  intro i hi j hcon
  have := C28_rigid _ _ _ _ _ _ _ hr i hi j j
  rw [show (fun k => r i j k - new i k) = 0 from by
    funext k; exact sub_eq_zero.mpr (congrFun hcon k)] at this
  have h0 : (fun k => c.rots i j k - c.P.spherePos i k) = 0 := by
    have h3 : dotp (fun k => c.rots i j k - c.P.spherePos i k) (fun k => c.rots i j k - c.P.spherePos i k) = 0 := by
      rw [← this]; simp [dotp]
    simp only [dotp] at h3
    funext k
    show c.rots i j k - c.P.spherePos i k = 0
    fin_cases k <;> simp only [Fin.zero_eta, Fin.mk_one, Fin.reduceFinMk] <;>
      nlinarith [mul_self_nonneg (c.rots i j 0 - c.P.spherePos i 0),
        mul_self_nonneg (c.rots i j 1 - c.P.spherePos i 1), mul_self_nonneg (c.rots i j 2 - c.P.spherePos i 2)]
  exact hc.arrows i hi j (funext fun k => sub_eq_zero.mp (congrFun h0 k))

theorem lone_move (S : Settings) {c : Config} (hc : IsLone c) (st : Stage) (v : Vel) (dt : ℝ)
    (e : Bool) : ∃ c', rk4Move S 0 0 c st v dt e = some (c', e) ∧ IsLone c' := by
  obtain ⟨r, hr, -⟩ := C28_rotation c.P.Ns c.P.spherePos c.rots (euler_timestep c.P.spherePos v.Ua dt) v.Oa dt
    hc.arrows
  have hw : wrapIf 0 0 st.Ot st.Et (euler_timestep c.P.spherePos v.Ua dt)
      = some (euler_timestep c.P.spherePos v.Ua dt) := (wrapIf_nonperiodic not_periodic_zero).mpr rfl
  refine ⟨⟨{ c.P with spherePos := euler_timestep c.P.spherePos v.Ua dt }, r⟩, ?_, hc.Ns, hc.Nd, hc.size,
    lone_arrows hc hr⟩
  unfold rk4Move
  rw [if_pos (by rw [hc.Ns]; omega), if_neg (by rw [hc.Nd]; omega)]
  simp only [Option.bind_eq_bind]
  rw [hr, Option.bind_some, hw]
  rfl

theorem lone_step (hS : LoneSettings S) {c : Config} (hc : IsLone c) {f : ℕ} {cache : NDMat} {reg : Bool}
    {lv : Vel} (hl : reg = false → GoodR cache) :
    ∃ r, timeStep (loneWorld V U O ctr E) S 0 0 f c lv cache reg = some r ∧ IsLone r.new ∧ GoodR r.cache ∧
      r.error = false := by
  have hNs : 0 < c.P.Ns := by rw [hc.Ns]; omega
  have hNd : ¬ 0 < c.P.Nd := by rw [hc.Nd]; omega
  obtain ⟨st, hst, hg, ho⟩ := lone_stage (V := V) (U := U) (O := O) (ctr := ctr) (E := E) (t := f) (lv := lv)
    hS hc hl
  obtain ⟨h1, h2, h3, h4, h5⟩ := ho
  obtain ⟨v, hv, -⟩ := lone_vel (V := V) hc h1 h2 h3 h4 h5 st.out.Ea
  have key : stepEulerAb2 (loneWorld V U O ctr E) S 0 0 f c lv cache reg = stepEulerAb2
      (loneWorld V U O ctr E) S 0 0 f c lv cache reg → (S.scheme = .euler ∨ S.scheme = .ab2) →
      ∃ r, stepEulerAb2 (loneWorld V U O ctr E) S 0 0 f c lv cache reg = some r ∧ IsLone r.new ∧
        GoodR r.cache ∧ r.error = false := by
    intro _ _
    unfold stepEulerAb2
    rw [hst]
    simp only [Option.bind_eq_bind, Option.bind_some]
    rw [hv]
    simp only [Option.bind_some]
    rw [if_pos hNs, if_neg hNd]
    generalize hv' : (if S.fully_2d_problem = true then ({ v with Ua := zeroY v.Ua } : Vel) else v) = v'
    by_cases hfirst : S.scheme = .euler ∨ f - S.start = 0
    · simp only [if_pos hfirst]
      obtain ⟨r, hr, -⟩ := C28_rotation c.P.Ns c.P.spherePos c.rots
        (euler_timestep c.P.spherePos v'.Ua S.timestep) v'.Oa S.timestep hc.arrows
      rw [hr]
      simp only [Option.bind_some]
      rw [(wrapIf_nonperiodic not_periodic_zero).mpr rfl]
      exact ⟨_, rfl, ⟨hc.Ns, hc.Nd, hc.size, lone_arrows hc hr⟩, hg, rfl⟩
    · simp only [if_neg hfirst]
      obtain ⟨r, hr, -⟩ := C28_rotation_ab2 c.P.Ns c.P.spherePos c.rots
        (ab2_timestep c.P.spherePos v'.Ua lv.Ua S.timestep) v'.Oa lv.Oa S.timestep hc.arrows
      rw [hr]
      simp only [Option.bind_some]
      rw [(wrapIf_nonperiodic not_periodic_zero).mpr rfl]
      unfold ab2_timestep_rotation at hr
      exact ⟨_, rfl, ⟨hc.Ns, hc.Nd, hc.size, lone_arrows hc hr⟩, hg, rfl⟩
  unfold timeStep
  rcases hsch : S.scheme with _ | _ | _ | _
  · exact key rfl (.inl hsch)
  · exact key rfl (.inr hsch)
  · obtain ⟨c1, hm1, hc1⟩ := lone_move S hc st v (S.timestep / 2) false
    obtain ⟨st2, a2, -, b2, b3, b4, b5, b6⟩ := lone_stage (V := V) (U := U) (O := O) (ctr := ctr) (E := E)
      (t := f + 0.5) (lv := lv) (last := st.cache) (reg := reg && S.rk4_each_stage) hS hc1 (fun _ => hg)
    obtain ⟨v2, hv2, -⟩ := lone_vel (V := V) hc b2 b3 b4 b5 b6 st.out.Ea
    obtain ⟨c2, hm2, hc2⟩ := lone_move S hc st2 v2 (S.timestep / 2) false
    obtain ⟨st3, d2, -, e2, e3, e4, e5, e6⟩ := lone_stage (V := V) (U := U) (O := O) (ctr := ctr) (E := E)
      (t := f + 0.5) (lv := lv) (last := st.cache) (reg := reg && S.rk4_each_stage) hS hc2 (fun _ => hg)
    obtain ⟨v3, hv3, -⟩ := lone_vel (V := V) hc e2 e3 e4 e5 e6 st3.out.Ea
    obtain ⟨c3, hm3, hc3⟩ := lone_move S hc st3 v3 S.timestep false
    obtain ⟨st4, g2, -, i2, i3, i4, i5, i6⟩ := lone_stage (V := V) (U := U) (O := O) (ctr := ctr) (E := E)
      (t := f + 1) (lv := lv) (last := st.cache) (reg := reg && S.rk4_each_stage) hS hc3 (fun _ => hg)
    obtain ⟨v4, hv4, -⟩ := lone_vel (V := V) hc i2 i3 i4 i5 i6 st4.out.Ea
    dsimp only
    generalize hw : (if S.fully_2d_problem = true then zeroY (blend v.Ua v2.Ua v3.Ua v4.Ua)
      else blend v.Ua v2.Ua v3.Ua v4.Ua) = w
    obtain ⟨r, hr, -⟩ := C28_rotation c.P.Ns c.P.spherePos c.rots
        (euler_timestep c.P.spherePos w S.timestep) (blend v.Oa v2.Oa v3.Oa v4.Oa) S.timestep hc.arrows
    unfold stepRk4
    refine ⟨_, Option.bind_eq_some_iff.mpr ⟨st, hst, Option.bind_eq_some_iff.mpr ⟨v, hv,
      Option.bind_eq_some_iff.mpr ⟨(c1, false), hm1, Option.bind_eq_some_iff.mpr ⟨st2, a2,
      Option.bind_eq_some_iff.mpr ⟨v2, hv2, Option.bind_eq_some_iff.mpr ⟨(c2, false), hm2,
      Option.bind_eq_some_iff.mpr ⟨st3, d2, Option.bind_eq_some_iff.mpr ⟨v3, hv3,
      Option.bind_eq_some_iff.mpr ⟨(c3, false), hm3, Option.bind_eq_some_iff.mpr ⟨st4, g2,
      Option.bind_eq_some_iff.mpr ⟨v4, hv4,
      Option.bind_eq_some_iff.mpr ⟨(euler_timestep c.P.spherePos w S.timestep, r), ?_,
      Option.bind_eq_some_iff.mpr ⟨(c.P.dumbPos, c.P.dumbDx, false), if_neg hNd, rfl⟩⟩⟩⟩⟩⟩⟩⟩⟩⟩⟩⟩⟩,
      ⟨hc.Ns, hc.Nd, hc.size, lone_arrows hc hr⟩, hg, rfl⟩
    rw [if_pos hNs, hw, (wrapIf_nonperiodic not_periodic_zero).mpr rfl]
    exact Option.bind_eq_some_iff.mpr ⟨_, rfl, Option.bind_eq_some_iff.mpr ⟨r, hr, rfl⟩⟩
  · exact absurd hsch hS.scheme

/-- Whatever the resistance matrix, the solution has the prescribed velocity and strain. -/
theorem lone_echo (hS : LoneSettings S) {c : Config} (hc : c.P.Ns = 1) {t : ℝ} {last : NDMat} {reg : Bool}
    {lv : Vel} {st : Stage} (h : generate_output_FTSUOE (loneWorld V U O ctr E) S c t last reg lv = some st) :
    st.out.Ua.getD 0 0 = V t ∧ st.out.Ea = [E] ∧ st.U = U ∧ st.O = O ∧ st.centre = ctr := by
  obtain ⟨u, R, u2, h1, -, h3, -, h4, h5, h6, h7, -⟩ := output_some h
  obtain rfl := h3 (by rw [hS.form]; decide)
  obtain rfl : loneUser (V t) U O ctr E = u2 := Option.some.inj h1
  refine ⟨?_, ?_, h5, h6, h7⟩
  all_goals
    rw [hS.form, hS.ext, hc] at h4
    have h4 : solveUFTE false 1 c.P.Nd R (loneInputs (V t) E) = some st.out := h4
    unfold solveUFTE at h4
    have hk : 1 - countPippa (loneInputs (V t) E).Ua = 1 := by
      simp [countPippa, loneInputs, isPippa, num3]
    dsimp only at h4
    rw [hk] at h4
    obtain ⟨_, -, h4⟩ := Option.bind_eq_some_iff.mp h4
    obtain ⟨_, -, h4⟩ := Option.bind_eq_some_iff.mp h4
    obtain ⟨_, -, h4⟩ := Option.bind_eq_some_iff.mp h4
    rw [if_neg (by simp)] at h4
    obtain ⟨_, -, h4⟩ := Option.bind_eq_some_iff.mp h4
    obtain ⟨_, -, h4⟩ := Option.bind_eq_some_iff.mp h4
    obtain ⟨Uf, a1, h4⟩ := Option.bind_eq_some_iff.mp h4
    obtain ⟨_, -, h4⟩ := Option.bind_eq_some_iff.mp h4
    obtain ⟨Ea, a2, h4⟩ := Option.bind_eq_some_iff.mp h4
    obtain ⟨_, -, h4⟩ := Option.bind_eq_some_iff.mp h4
    obtain ⟨_, -, h4⟩ := Option.bind_eq_some_iff.mp h4
    have h4 := Option.some.inj h4
  · have a1 := floatsL_num a1
    rw [← h4]
    rcases Uf with _ | ⟨a, l⟩
    · simp [loneInputs] at a1
    · simp only [loneInputs, List.take_succ_cons, List.take_zero, List.map_cons, List.cons.injEq] at a1
      show a = V t
      funext k
      have := congrFun a1.1 k
      simp only [num3, Option.some.injEq] at this
      exact this.symm
  · have a2 := floats33L_num a2
    rw [← h4]
    show Ea = [E]
    rcases Ea with _ | ⟨a, l⟩
    · simp [loneInputs] at a2
    · simp only [loneInputs, List.map_cons, List.cons.injEq] at a2
      obtain ⟨h3, h4⟩ := a2
      obtain rfl : l = [] := by simpa using h4.symm
      congr 1
      funext i j
      have := congrFun (congrFun h3 i) j
      simp only [num33, Option.some.injEq] at this
      exact this.symm

/-- Saving everything from the start of a fresh run. -/
structure SaveSettings (S : Settings) : Prop where
  start : S.start = 0
  first : S.start_saving = 0
  pos : 0 < S.save_positions_every
  force : 0 < S.save_forces_every
  temp : 0 < S.save_to_temp_every

theorem savePositions_ok (hS : SaveSettings S) {f : ℕ} {old new : Config} {saved : Option (List Config)}
    (h : f = 0 ∨ ∃ l, saved = some l) : ∃ p, savePositions S f old new saved = some (some p) := by
  unfold savePositions
  rw [hS.first, hS.start]
  have hp := hS.pos
  rcases h with rfl | ⟨l, rfl⟩
  · rw [if_pos ⟨hp, Nat.zero_mod _, le_rfl⟩, if_pos rfl]
    simp only [Option.bind_eq_bind, Option.bind_some]
    by_cases e : 0 = S.num_frames - 1 ∧ 0 < S.num_frames
    · rw [if_pos e]; exact ⟨_, rfl⟩
    · rw [if_neg e]; exact ⟨_, rfl⟩
  · by_cases h1 : S.save_positions_every > 0 ∧ f % S.save_positions_every = 0 ∧ f ≥ 0
    · rw [if_pos h1]
      by_cases h0 : f = 0
      · rw [if_pos h0]
        simp only [Option.bind_eq_bind, Option.bind_some]
        by_cases e : f = S.num_frames - 1 ∧ 0 < S.num_frames
        · rw [if_pos e]; exact ⟨_, rfl⟩
        · rw [if_neg e]; exact ⟨_, rfl⟩
      · rw [if_neg h0, if_pos h0]
        simp only [Option.bind_eq_bind, Option.bind_some, Option.map_some]
        by_cases e : f = S.num_frames - 1 ∧ 0 < S.num_frames
        · rw [if_pos e]; exact ⟨_, rfl⟩
        · rw [if_neg e]; exact ⟨_, rfl⟩
    · rw [if_neg h1]; exact ⟨_, rfl⟩

theorem saveForces_ok (hS : SaveSettings S) {f : ℕ} {x : Forces} {saved : Option (List Forces)}
    (h : f = 0 ∨ ∃ l, saved = some l) : ∃ p, saveForces S f x saved = some (some p) := by
  unfold saveForces
  rw [hS.first, hS.start]
  have hp := hS.force
  rcases h with rfl | ⟨l, rfl⟩
  · rw [if_pos ⟨hp, Nat.zero_mod _, le_rfl⟩, if_pos rfl]; exact ⟨_, rfl⟩
  · by_cases h1 : S.save_forces_every > 0 ∧ f % S.save_forces_every = 0 ∧ f ≥ 0
    · rw [if_pos h1]
      by_cases h0 : f = 0
      · rw [if_pos h0]; exact ⟨_, rfl⟩
      · rw [if_neg h0, if_pos h0]; exact ⟨_, rfl⟩
    · rw [if_neg h1]; exact ⟨_, rfl⟩

theorem saveTemp_ok (hS : SaveSettings S) {f : ℕ} {p : List Config} {g : List Forces}
    {t : Option Saved} : ∃ t', saveTemp S f (some p) (some g) t = some t' := by
  unfold saveTemp
  have := hS.temp
  rw [if_pos hS.pos, if_neg (by omega)]
  split_ifs
  · exact ⟨_, rfl⟩
  · exact ⟨_, rfl⟩

/-- The runs of the lone sphere succeed. -/
theorem lone_run (hS : LoneSettings S) (hs : SaveSettings S) {c : Config} (hc : IsLone c) (k : ℕ) :
    ∃ s, runFrames (loneWorld V U O ctr E) S 0 0 (State.fresh c) k = some s ∧ IsLone s.posdata ∧
      s.error = false ∧ (0 < k → GoodR s.cache ∧ (∃ p, s.savedPos = some p) ∧ ∃ g, s.savedForces = some g) := by
  induction k with
  | zero => exact ⟨_, rfl, hc, rfl, fun h => absurd h (by omega)⟩
  | succ k ih =>
    obtain ⟨s, h1, h2, h3, h4⟩ := ih
    obtain ⟨r, hr, hr1, hr2, hr3⟩ := lone_step (V := V) (U := U) (O := O) (ctr := ctr) (E := E) (f := S.start + k)
      (lv := velIn S (S.start + k) s) (cache := cacheIn S (S.start + k) s) (reg := regen S (S.start + k)) hS h2
      (fun hreg => by
        have hk : 0 < k := by
          by_contra h0
          obtain rfl : k = 0 := by omega
          simp [regen] at hreg
        unfold cacheIn
        rw [if_neg (by simp [hreg])]
        exact (h4 hk).1)
    have hst := hs.start
    obtain ⟨p, hp⟩ := savePositions_ok hs (f := S.start + k) (old := s.posdata) (new := r.new) (saved := s.savedPos)
      (by rcases Nat.eq_zero_or_pos k with h | h
          · left; omega
          · exact .inr (h4 h).2.1)
    obtain ⟨g, hg⟩ := saveForces_ok hs (f := S.start + k) (x := r.forces) (saved := s.savedForces)
      (by rcases Nat.eq_zero_or_pos k with h | h
          · left; omega
          · exact .inr (h4 h).2.2)
    obtain ⟨t, ht⟩ := saveTemp_ok hs (f := S.start + k) (p := p) (g := g) (t := s.temp)
    refine ⟨{ posdata := r.new, error := r.error, cache := r.cache, lastVel := r.lastVel, savedPos := some p,
              savedForces := some g, temp := t }, ?_, hr1, hr3, fun _ => ⟨hr2, ⟨p, rfl⟩, g, rfl⟩⟩
    rw [run_succ, h1, Option.bind_some, frame_eq h3 hS.every]
    unfold frameStep
    rw [hr, Option.bind_some, hp, Option.bind_some, hg, Option.bind_some, ht, Option.bind_some]

/-- A frame of such a run. -/
theorem lone_frame (hS : LoneSettings S) (hs : SaveSettings S) {c : Config} (hc : IsLone c) (k : ℕ) :
    ∃ s s', runFrames (loneWorld V U O ctr E) S 0 0 (State.fresh c) k = some s ∧ s.error = false ∧
      IsLone s.posdata ∧ generate_frame (loneWorld V U O ctr E) S 0 0 (S.start + k) s = some s' ∧
      s'.error = false ∧ IsLone s'.posdata := by
  obtain ⟨s', h', a, b, -⟩ := lone_run (V := V) (U := U) (O := O) (ctr := ctr) (E := E) hS hs hc (k + 1)
  obtain ⟨s, h, h2⟩ := run_prev h'
  obtain ⟨s1, h1, c1, d1, -⟩ := lone_run (V := V) (U := U) (O := O) (ctr := ctr) (E := E) hS hs hc k
  obtain rfl := Option.some.inj (h.symm.trans h1)
  exact ⟨s, s', h, d1, c1, h2, b, a⟩

end

/-- The starting configuration of the examples. -/
noncomputable def loneStart : Config where
  P := loneP
  rots := defaultRots loneP.spherePos loneP.sphereSize

theorem loneStart_isLone : IsLone loneStart := by
  refine ⟨rfl, rfl, rfl, fun i _ j h => ?_⟩
  have h0 := congrFun h 0
  have h2 := congrFun h 2
  by_cases hj : j = 0 <;> simp [loneStart, defaultRots, loneP, hj] at h0 h2

/-- Settings for the examples: `N` frames with the scheme `sch`, refreshing the inverse every third frame,
saving every second frame and a backup every fifth. -/
noncomputable def loneSettings (sch : Scheme) (N : ℕ) : Settings where
  fully_2d_problem := false
  timestep := 1 / 10
  num_frames := N
  input_form := .ufte
  invert_m_every := 3
  cutoff_factor := 2
  scheme := sch
  rk4_each_stage := true
  bead_bead_interactions := true
  explosion_protection := true
  start_saving := 0
  save_positions_every := 2
  save_forces_every := 2
  save_to_temp := true
  save_to_temp_every := 5
  extract := false
  use_drag_Minfinity := false
  use_Minfinity_only := true
  start := 0

theorem loneSettings_ok {sch : Scheme} (h : sch ≠ .other) (N : ℕ) : LoneSettings (loneSettings sch N) :=
  ⟨rfl, rfl, rfl, rfl, by simp [loneSettings], h, by simp [loneSettings]⟩

theorem loneSettings_save (sch : Scheme) (N : ℕ) : SaveSettings (loneSettings sch N) :=
  ⟨rfl, rfl, by simp [loneSettings], by simp [loneSettings], by simp [loneSettings]⟩

end SD
