import Verif.Spec.Progress
import Verif.Lemmas.MovedProgram
import Verif.Props.Motion
import Verif.Lemmas.LoneRun

/-!
# Steps that succeed
-/

set_option autoImplicit false

namespace SD.Move

open Spec Cov

/-- A cached inverse that fits the particles `P`. -/
structure Sound (P : PosData) (C : NDMat) : Prop where
  rows : C.rows = side P
  cols : C.cols = side P
  symm : ∀ i j, C.get i j = C.get j i
  pos : PosDef C.get (side P)

theorem grand_exists {T : ScalarTable} (hD : TableDissipates T) {P : PosData} {last : NDMat} {reg : Bool} {k : ℝ}
    {dragM only bb : Bool} {mu : ℝ} (hP : Sensible P) (hS : Separate P) (hk : 0 < k)
    (hT : Tabulated T.lam P k) (hmu : 0 < mu) (hbb : bb = true ∨ P.Nd = 0)
    (hl : dragM = false → reg = false → Sound P last) :
    ∃ R C, generate_grand_resistance_matrix T P last reg k dragM only mu bb = some (R, C) ∧ Sound P R ∧ Sound P C := by
  obtain ⟨R, C, h⟩ : ∃ R C, generate_grand_resistance_matrix T P last reg k dragM only mu bb = some (R, C) := by
    unfold generate_grand_resistance_matrix
    obtain ⟨C, hC⟩ : ∃ C, (if dragM = false then
        if reg then (generate_Minfinity P mu bb).inv else some last
      else some (NDMat.smul mu (npDiag (dragDiagonal P)))) = some C := by
      cases dragM
      · cases reg
        · exact ⟨_, rfl⟩
        · obtain ⟨C, hC, -⟩ := C59_inverse hP hS hmu hbb
          exact ⟨C, hC⟩
      · exact ⟨_, rfl⟩
    rw [hC, Option.bind_eq_bind, Option.bind_some]
    cases only
    · obtain ⟨N, hN, -⟩ := C60_table hD hP hk hT hmu.le bb
      rw [if_pos rfl, hN]
      exact ⟨_, _, rfl⟩
    · exact ⟨_, _, rfl⟩
  obtain ⟨p1, p2⟩ := grand_posDef hD hP hS hk hT hmu hbb (fun a b => (hl a b).pos) h
  obtain ⟨d1, d2⟩ := grand_dims hP hk hT (fun a b => ⟨(hl a b).rows, (hl a b).cols⟩) h
  have s := C25_symmetric hP hk hT (fun a b => (hl a b).symm) h
  exact ⟨R, C, h, ⟨d1.1, d1.2, fun i j => (s i j).1, p1⟩, ⟨d2.1, d2.2, fun i j => (s i j).2, p2⟩⟩

section
variable {W : World} {S : Settings} {K : NDMat → Prop}

/-- The solver works at `c`: from a cache with the property `K` it makes a sound resistance matrix and such a cache
again. -/
def Serves (W : World) (S : Settings) (K : NDMat → Prop) (c : Config) : Prop :=
  ∀ {f : ℝ} {lv : Vel} {u : UserInput} {last : NDMat} {reg : Bool}, W.input_ftsuoe c f S.timestep lv none = some u →
    (S.use_drag_Minfinity = false → reg = false → K last) →
    ∃ R C, generate_grand_resistance_matrix W.table c.P last reg S.cutoff_factor S.use_drag_Minfinity
      S.use_Minfinity_only u.mu S.bead_bead_interactions = some (R, C) ∧ Sound c.P R ∧ K C

theorem Sound.of_counts {P P' : PosData} {C : NDMat} (h : Sound P C) (h1 : P'.Ns = P.Ns) (h2 : P'.Nd = P.Nd) :
    Sound P' C := by
  have e : side P' = side P := by unfold side; rw [h1, h2]
  exact ⟨by rw [e]; exact h.rows, by rw [e]; exact h.cols, h.symm, by rw [e]; exact h.pos⟩

theorem dissipates_serves (hD : TableDissipates W.table) (hk : 0 < S.cutoff_factor) {c d : Config} (hd : Ready W S d)
    (h1 : d.P.Ns = c.P.Ns) (h2 : d.P.Nd = c.P.Nd) : Serves W S (Sound c.P) d := by
  intro f lv u last reg hu hl
  obtain ⟨u', hu', -, -, hmu, -⟩ := hd.answers f S.timestep lv none
  obtain rfl : u = u' := by rw [hu] at hu'; exact Option.some.inj hu'
  obtain ⟨R, C, h, sR, sC⟩ := grand_exists (only := S.use_Minfinity_only) hD hd.sensible hd.separate hk hd.tabulated hmu
    hd.beads (fun a b => (hl a b).of_counts h1 h2)
  exact ⟨R, C, h, sR, sC.of_counts h1.symm h2.symm⟩

theorem mapM_length {l : List OMat3} {r : List Mat3} (h : l.mapM floats33 = some r) : r.length = l.length := by
  rw [floats33L_num h, List.length_map]

theorem serve_stage (hx : S.extract = false) {c : Config} (hG : Serves W S K c)
    (hc : Ready W S c) {f : ℝ} {last : NDMat} {reg : Bool} {lv : Vel}
    (hl : S.use_drag_Minfinity = false → reg = false → K last) :
    ∃ st, generate_output_FTSUOE W S c f last reg lv = some st ∧ K st.cache ∧
      c.P.Ns ≤ st.out.Ea.length ∧ (0 < c.P.Nd → st.out.Ea ≠ []) := by
  obtain ⟨u, hu, z1, hC, hmu, hb, he⟩ := hc.answers f S.timestep lv none
  obtain ⟨R, C, hR, sR, sC⟩ := hG hu hl
  have hnp : ¬ isPeriodic u.bl u.tr := by
    rw [hb]
    intro h
    unfold isPeriodic at h
    simp at h
  have hres : stageResistance W S c last reg u = some (R, C) := by
    unfold stageResistance
    rw [if_neg hnp]
    exact hR
  obtain ⟨u2, hu2, hC2, z2, he2⟩ : ∃ u2, (if S.input_form = .fte then do
        let R' ← fts_to_fte_matrix c.P.Ns c.P.Nd R
        W.input_ftsuoe c f S.timestep lv (some R')
      else some u : Option UserInput) = some u2 ∧ Complete S.input_form c.P.Ns c.P.Nd u2.inp ∧
        Sized c.P.Ns c.P.Nd u2.inp ∧ (c.P.Ns = 0 → 0 < c.P.Nd → u2.inp.Ea ≠ []) := by
    by_cases e : S.input_form = .fte
    · rw [if_pos e]
      have hp : 0 < c.P.Ns := by
        by_contra h0
        have := hc.allowed.1 (by omega)
        rw [e] at this
        simp at this
      obtain ⟨X, hX⟩ := fte_exists hp sR.pos
      rw [hX]
      obtain ⟨u2, h2, z2, h3, -, -, h4⟩ := hc.answers f S.timestep lv (some X)
      exact ⟨u2, h2, h3, z2, h4⟩
    · rw [if_neg e]
      exact ⟨u, rfl, hC, z1, he⟩
  obtain ⟨out, ho⟩ := C09_spd_succeeds hc.allowed z2 sR.rows sR.cols (fun i _ j _ => sR.symm i j) sR.pos hC2
  have hs := solve_strains ho
  refine ⟨{ out := out, cache := C, U := u2.U, O := u2.O, centre := u2.centre, Ot := u2.Ot, Et := u2.Et }, ?_, sC, ?_, ?_⟩
  · unfold generate_output_FTSUOE
    rw [hu, Option.bind_eq_bind, Option.bind_some, hres, Option.bind_eq_bind, Option.bind_some]
    dsimp only
    rw [hu2, Option.bind_eq_bind, Option.bind_some, hx, ho]
    rfl
  all_goals
    by_cases hf : S.input_form = .fts ∧ 0 < c.P.Ns
    · rw [if_pos hf] at hs
      first
      | exact hs.ge
      | (intro _ h0
         have h0 : out.Ea = [] := h0
         rw [h0] at hs
         simp at hs
         omega)
    rw [if_neg hf] at hs
    have hlen := mapM_length hs
  · show c.P.Ns ≤ out.Ea.length
    rw [hlen]
    by_cases h0 : c.P.Ns = 0
    · omega
    cases hform : S.input_form with
    | fts => exact absurd ⟨hform, by omega⟩ hf
    | fte => rw [hform] at hC2; exact hC2.2.2.1.1
    | ufte => rw [hform] at hC2; obtain ⟨_, _, _, _, _, _, h, _⟩ := hC2; exact h.1
    | ufteu => rw [hform] at hC2; obtain ⟨_, _, _, _, _, _, _, _, h, _⟩ := hC2; exact h.1
    | duf => exact absurd hform (hc.allowed.2 (by omega))
  · intro hd h0
    have h0 : out.Ea = [] := h0
    rw [h0, List.length_nil] at hlen
    have hE : u2.inp.Ea = [] := List.length_eq_zero_iff.mp hlen.symm
    by_cases hns : c.P.Ns = 0
    · exact he2 hns hd hE
    · cases hform : S.input_form with
      | fts => exact hf ⟨hform, by omega⟩
      | fte => rw [hform] at hC2; have := hC2.2.2.1.1; rw [hE] at this; simp at this; omega
      | ufte => rw [hform] at hC2; obtain ⟨_, _, _, _, _, _, h, _⟩ := hC2; have := h.1; rw [hE] at this; simp at this; omega
      | ufteu => rw [hform] at hC2; obtain ⟨_, _, _, _, _, _, _, _, h, _⟩ := hC2; have := h.1; rw [hE] at this; simp at this; omega
      | duf => exact absurd hform (hc.allowed.2 (by omega))

theorem ready_stage (hD : TableDissipates W.table) (hk : 0 < S.cutoff_factor) (hx : S.extract = false) {c : Config}
    (hc : Ready W S c) {f : ℝ} {last : NDMat} {reg : Bool} {lv : Vel}
    (hl : S.use_drag_Minfinity = false → reg = false → Sound c.P last) :
    ∃ st, generate_output_FTSUOE W S c f last reg lv = some st ∧ Sound c.P st.cache ∧
      c.P.Ns ≤ st.out.Ea.length ∧ (0 < c.P.Nd → st.out.Ea ≠ []) :=
  serve_stage hx (dissipates_serves hD hk hc rfl rfl) hc hl

theorem vel_exists {c : Config} {st : Stage} {Ed : List Mat3} (h1 : c.P.Ns ≤ st.out.Ea.length)
    (h2 : 0 < c.P.Nd → Ed ≠ []) : ∃ v, stageVel c st Ed = some v := by
  unfold stageVel
  rw [if_neg (by omega), if_neg (fun h => h2 h.1 h.2)]
  exact ⟨_, rfl⟩

theorem turn_arrows {n : ℕ} {pos new O : ℕ → Vec3} {rots r : Rots} {dt : ℝ}
    (h : ∀ i < n, ∀ j, rots i j ≠ pos i) (hr : euler_timestep_rotation n pos rots new O dt = some r) :
    ∀ i < n, ∀ j, r i j ≠ new i := by
  intro i hi j hcon
  have := C28_rigid _ _ _ _ _ _ _ hr i hi j j
  rw [show (fun k => r i j k - new i k) = 0 from by
    funext k; exact sub_eq_zero.mpr (congrFun hcon k)] at this
  refine h i hi j ?_
  have h3 : dotp (fun k => rots i j k - pos i k) (fun k => rots i j k - pos i k) = 0 := by
    rw [← this]; simp [dotp]
  simp only [dotp] at h3
  funext k
  fin_cases k <;> simp only [Fin.zero_eta, Fin.mk_one, Fin.reduceFinMk] <;>
    nlinarith [sq_nonneg (rots i j 0 - pos i 0), sq_nonneg (rots i j 1 - pos i 1), sq_nonneg (rots i j 2 - pos i 2)]

theorem spheres_exist {c : Config} (ha : Arrows c) (new Oa : ℕ → Vec3) (dt : ℝ) :
    ∃ r, euler_timestep_rotation c.P.Ns c.P.spherePos c.rots new Oa dt = some r ∧
      ∀ i < c.P.Ns, ∀ j, r i j ≠ new i := by
  obtain ⟨r, hr, -⟩ := C28_rotation c.P.Ns c.P.spherePos c.rots new Oa dt ha
  exact ⟨r, hr, turn_arrows ha hr⟩

theorem euler_exists {c : Config} (hG : Serves W S K c) (hS : Runnable S c.P.Nd) (hc : Ready W S c)
    (ha : Arrows c) {bl tr : Vec3} (hb : bl = tr) {f : ℕ} {lv : Vel} {last : NDMat} {reg : Bool}
    (hsch : S.scheme = .euler ∨ (S.scheme = .ab2 ∧ c.P.Nd = 0))
    (hl : S.use_drag_Minfinity = false → reg = false → K last) :
    ∃ r, stepEulerAb2 W S bl tr f c lv last reg = some r ∧ Arrows r.new ∧ K r.cache := by
  obtain ⟨st, hst, hs, e1, e2⟩ := serve_stage hS.extract hG hc (f := f) (lv := lv) hl
  obtain ⟨v, hv⟩ := vel_exists e1 e2
  unfold stepEulerAb2
  rw [hst, Option.bind_eq_bind, Option.bind_some, hv, Option.bind_eq_bind, Option.bind_some]
  dsimp only
  rw [wrapIf_same hb, wrapIf_same hb]
  generalize (if S.fully_2d_problem = true then ({ v with Ua := zeroY v.Ua } : Vel) else v) = w
  generalize (if S.scheme = .euler ∨ f - S.start = 0 then euler_timestep c.P.spherePos w.Ua S.timestep
        else ab2_timestep c.P.spherePos w.Ua lv.Ua S.timestep) = new
  obtain ⟨sp, h1, h2⟩ : ∃ sp : (ℕ → Vec3) × Rots, (if 0 < c.P.Ns then do
        let rots ← (if S.scheme = .euler ∨ f - S.start = 0 then
            euler_timestep_rotation c.P.Ns c.P.spherePos c.rots new w.Oa S.timestep
          else ab2_timestep_rotation c.P.Ns c.P.spherePos c.rots new w.Oa lv.Oa S.timestep : Option Rots)
        let new ← some new
        some (new, rots)
      else some (c.P.spherePos, c.rots) : Option ((ℕ → Vec3) × Rots)) = some sp ∧
        ∀ i < c.P.Ns, ∀ j, sp.2 i j ≠ sp.1 i := by
    by_cases hp : 0 < c.P.Ns
    · rw [if_pos hp]
      by_cases hq : S.scheme = .euler ∨ f - S.start = 0
      · rw [if_pos hq]
        obtain ⟨r, hr, h⟩ := spheres_exist ha new w.Oa S.timestep
        rw [hr]
        exact ⟨_, rfl, h⟩
      · rw [if_neg hq]
        unfold ab2_timestep_rotation
        obtain ⟨r, hr, h⟩ := spheres_exist ha new (fun i k => 1.5 * w.Oa i k - 0.5 * lv.Oa i k) S.timestep
        rw [hr]
        exact ⟨_, rfl, h⟩
    · rw [if_neg hp]
      exact ⟨_, rfl, fun i hi => absurd hi (by omega)⟩
  obtain ⟨db, h3⟩ : ∃ db : (ℕ → Vec3) × (ℕ → Vec3) × Bool, (if 0 < c.P.Nd then
      if S.scheme = .euler then do
        let new ← some (euler_timestep c.P.dumbPos w.Ub S.timestep)
        some (new, euler_timestep c.P.dumbDx (fun i k => 2 * w.HalfDUb i k) S.timestep,
          did_something_go_wrong_with_dumbells false c.P.Nd
            (euler_timestep c.P.dumbDx (fun i k => 2 * w.HalfDUb i k) S.timestep) S.explosion_protection)
      else none
    else some (c.P.dumbPos, c.P.dumbDx, false) : Option ((ℕ → Vec3) × (ℕ → Vec3) × Bool)) = some db := by
    by_cases hp : 0 < c.P.Nd
    · rw [if_pos hp]
      rcases hsch with h | h
      · rw [if_pos h]; exact ⟨_, rfl⟩
      · omega
    · rw [if_neg hp]; exact ⟨_, rfl⟩
  erw [h1]
  rw [Option.bind_eq_bind, Option.bind_some]
  erw [h3]
  exact ⟨_, rfl, h2, hs⟩

theorem move_exists {c : Config} (ha : Arrows c) {bl tr : Vec3} (hb : bl = tr) (st : Stage) (v : Vel) (dt : ℝ) (e : Bool) :
    ∃ p, rk4Move S bl tr c st v dt e = some p ∧ p.1.P.Ns = c.P.Ns ∧ p.1.P.Nd = c.P.Nd := by
  obtain ⟨p, hp⟩ : ∃ p, rk4Move S bl tr c st v dt e = some p := by
    unfold rk4Move
    dsimp only
    rw [wrapIf_same hb, wrapIf_same hb]
    obtain ⟨r, hr, -⟩ := spheres_exist ha (euler_timestep c.P.spherePos v.Ua dt) v.Oa dt
    rw [hr]
    by_cases hp : 0 < c.P.Ns <;> by_cases hq : 0 < c.P.Nd
    · rw [if_pos hp, if_pos hq]; exact ⟨_, rfl⟩
    · rw [if_pos hp, if_neg hq]; exact ⟨_, rfl⟩
    · rw [if_neg hp, if_pos hq]; exact ⟨_, rfl⟩
    · rw [if_neg hp, if_neg hq]; exact ⟨_, rfl⟩
  exact ⟨p, hp, move_counts (c1 := p.1) (e1 := p.2) hp⟩

theorem end_exists {c : Config} (ha : Arrows c) {bl tr : Vec3} (hb : bl = tr) (s1 s2 s3 s4 : Stage)
    (v1 v2 v3 v4 : Vel) (e : Bool) :
    ∃ r, rk4End S bl tr c s1 s2 s3 s4 v1 v2 v3 v4 e = some r ∧ Arrows r.new ∧ r.cache = s1.cache := by
  unfold rk4End
  dsimp only
  rw [wrapIf_same hb, wrapIf_same hb]
  generalize (if S.fully_2d_problem = true then zeroY (blend v1.Ua v2.Ua v3.Ua v4.Ua)
    else blend v1.Ua v2.Ua v3.Ua v4.Ua) = w
  obtain ⟨r, hr, h⟩ := spheres_exist ha (euler_timestep c.P.spherePos w S.timestep)
    (blend v1.Oa v2.Oa v3.Oa v4.Oa) S.timestep
  simp only [Option.bind_eq_bind, Option.bind_some]
  rw [hr, Option.bind_some]
  by_cases hp : 0 < c.P.Ns <;> by_cases hq : 0 < c.P.Nd
  · rw [if_pos hp, if_pos hq]; exact ⟨_, rfl, h, rfl⟩
  · rw [if_pos hp, if_neg hq]; exact ⟨_, rfl, h, rfl⟩
  · rw [if_neg hp, if_pos hq]; exact ⟨_, rfl, ha, rfl⟩
  · rw [if_neg hp, if_neg hq]; exact ⟨_, rfl, ha, rfl⟩

theorem rk4_exists {c : Config} (hG : Serves W S K c) (hS : Runnable S c.P.Nd) (hc : Ready W S c)
    (ha : Arrows c) {bl tr : Vec3} (hb : bl = tr) {f : ℕ} {lv : Vel} {last : NDMat} {reg : Bool}
    (hl : S.use_drag_Minfinity = false → reg = false → K last)
    (hi : ∀ d, Inner W S bl tr f c lv last reg d → Ready W S d ∧ Serves W S K d) :
    ∃ r, stepRk4 W S bl tr f c lv last reg = some r ∧ Arrows r.new ∧ K r.cache := by
  obtain ⟨s1, a1, k1, l1, m1⟩ := serve_stage hS.extract hG hc (f := f) (lv := lv) hl
  obtain ⟨v1, b1⟩ := vel_exists l1 m1
  obtain ⟨p1, g1, n1, d1⟩ := move_exists (S := S) ha hb s1 v1 (S.timestep / 2) false
  have r1 := hi _ ⟨s1, v1, p1, a1, b1, g1, .inl rfl⟩
  obtain ⟨s2, a2, -, l2, m2⟩ := serve_stage hS.extract r1.2 r1.1 (f := f + 0.5) (lv := lv) (last := s1.cache)
    (reg := reg && S.rk4_each_stage) (fun _ _ => k1)
  obtain ⟨v2, b2⟩ := vel_exists (c := c) (by rw [n1] at l2; exact l2) m1
  obtain ⟨p2, g2, n2, d2⟩ := move_exists (S := S) ha hb s2 v2 (S.timestep / 2) p1.2
  have r2 := hi _ ⟨s1, v1, p1, a1, b1, g1, .inr ⟨s2, v2, p2, a2, b2, g2, .inl rfl⟩⟩
  obtain ⟨s3, a3, -, l3, m3⟩ := serve_stage hS.extract r2.2 r2.1 (f := f + 0.5) (lv := lv) (last := s1.cache)
    (reg := reg && S.rk4_each_stage) (fun _ _ => k1)
  obtain ⟨v3, b3⟩ := vel_exists (c := c) (by rw [n2] at l3; exact l3) (by rw [d2] at m3; exact m3)
  obtain ⟨p3, g3, n3, d3⟩ := move_exists (S := S) ha hb s3 v3 S.timestep p2.2
  have r3 := hi _ ⟨s1, v1, p1, a1, b1, g1, .inr ⟨s2, v2, p2, a2, b2, g2, .inr ⟨s3, v3, p3, a3, b3, g3, rfl⟩⟩⟩
  obtain ⟨s4, a4, -, l4, m4⟩ := serve_stage hS.extract r3.2 r3.1 (f := f + 1) (lv := lv) (last := s1.cache)
    (reg := reg && S.rk4_each_stage) (fun _ _ => k1)
  obtain ⟨v4, b4⟩ := vel_exists (c := c) (by rw [n3] at l4; exact l4) (by rw [d3] at m4; exact m4)
  obtain ⟨r, hr, h1, h2⟩ := end_exists (S := S) ha hb s1 s2 s3 s4 v1 v2 v3 v4 p3.2
  refine ⟨r, ?_, h1, by rw [h2]; exact k1⟩
  rw [rk4_eq, a1, Option.bind_some, b1, Option.bind_some, g1, Option.bind_some, a2, Option.bind_some, b2,
    Option.bind_some, g2, Option.bind_some, a3, Option.bind_some, b3, Option.bind_some, g3, Option.bind_some, a4,
    Option.bind_some, b4, Option.bind_some]
  exact hr

theorem visits_eq {bl tr : Vec3} {f : ℕ} {s : State} {d : Config} :
    Visits W S bl tr f s d ↔ d = s.posdata ∨ S.scheme = .rk4 ∧
      Inner W S bl tr f s.posdata (velIn S f s) (cacheIn S f s) (regen S f) d := by
  have e : regen S f = decide (f % S.invert_m_every = 0 ∨ f = S.start) := by
    unfold regen
    simp [Bool.decide_or]
    rfl
  have e2 : cacheIn S f s = if f % S.invert_m_every = 0 ∨ f = S.start then NDMat.zeros 1 1 else s.cache := by
    unfold cacheIn
    rw [e]
    simp only [decide_eq_true_eq]
  unfold Visits
  rw [e, e2]
  rfl

theorem step_exists {s : State} (hS : Runnable S s.posdata.P.Nd)
    (ha : Arrows s.posdata) {bl tr : Vec3} (hb : bl = tr) {f : ℕ}
    (hl : f = S.start ∨ K s.cache)
    (hi : ∀ d, Visits W S bl tr f s d → Ready W S d ∧ Serves W S K d) :
    ∃ r, frameStep W S bl tr f s = some r ∧ Arrows r.new ∧ K r.cache := by
  obtain ⟨hc, hG⟩ := hi _ (.inl rfl)
  have hl' : S.use_drag_Minfinity = false → regen S f = false → K (cacheIn S f s) := by
    intro _ hg
    unfold cacheIn
    rw [hg]
    rcases hl with rfl | h
    · simp [regen] at hg
    · exact h
  unfold frameStep timeStep
  rcases hS.scheme with h | h | h
  · rw [h]; exact euler_exists hG hS hc ha hb (.inl h) hl'
  · rw [h.1]; exact euler_exists hG hS hc ha hb (.inr h) hl'
  · rw [h]
    exact rk4_exists hG hS hc ha hb hl' fun d hd => hi d (visits_eq.mpr (.inr ⟨h, hd⟩))

theorem runnable_save {n : ℕ} (h : Runnable S n) : SaveSettings S :=
  ⟨h.start, h.first, h.pos, h.force, h.temp⟩

/-- The run of `k` frames exists if every configuration visited in them is ready and the solver works there. -/
theorem run_exists {c : Config} (hS : Runnable S c.P.Nd) (ha : Arrows c)
    {bl tr : Vec3} (hb : bl = tr) (k : ℕ)
    (hi : ∀ j < k, ∀ s, runFrames W S bl tr (State.fresh c) j = some s → s.error = false →
      ∀ d, Visits W S bl tr j s d → Ready W S d ∧ Serves W S K d) :
    ∃ s, runFrames W S bl tr (State.fresh c) k = some s ∧ Arrows s.posdata ∧
      s.posdata.P.Ns = c.P.Ns ∧ s.posdata.P.Nd = c.P.Nd ∧
      (0 < k → (s.error = true ∨ K s.cache) ∧ (∃ p, s.savedPos = some p) ∧ ∃ g, s.savedForces = some g) := by
  induction k with
  | zero => exact ⟨_, rfl, ha, rfl, rfl, fun h => absurd h (by omega)⟩
  | succ k ih =>
    obtain ⟨s, h1, h2, h3, h4, h5⟩ := ih fun j hj => hi j (by omega)
    cases he : s.error with
    | true =>
      have hk : 0 < k := by
        by_contra h0
        obtain rfl : k = 0 := by omega
        obtain rfl := Option.some.inj h1
        simp [State.fresh] at he
      refine ⟨s, ?_, h2, h3, h4, fun _ => ⟨.inl he, (h5 hk).2⟩⟩
      rw [run_succ, h1]
      exact frame_error he
    | false =>
      have hst : S.start + k = k := by rw [hS.start]; omega
      have hs := runnable_save hS
      obtain ⟨r, hr, hr1, hr2⟩ := step_exists (s := s) (f := k) (bl := bl) (tr := tr) (K := K) (by rw [h4]; exact hS) h2 hb (by
          rcases Nat.eq_zero_or_pos k with h | h
          · left; rw [h, hS.start]
          · rcases (h5 h).1 with h' | h'
            · rw [he] at h'; simp at h'
            · exact .inr h') (hi k (by omega) s h1 he)
      obtain ⟨p, hp⟩ := savePositions_ok hs (f := k) (old := s.posdata) (new := r.new) (saved := s.savedPos)
        (by rcases Nat.eq_zero_or_pos k with h | h
            · exact .inl h
            · exact .inr (h5 h).2.1)
      obtain ⟨g, hg⟩ := saveForces_ok hs (f := k) (x := r.forces) (saved := s.savedForces)
        (by rcases Nat.eq_zero_or_pos k with h | h
            · exact .inl h
            · exact .inr (h5 h).2.2)
      obtain ⟨t, ht⟩ := saveTemp_ok hs (f := k) (p := p) (g := g) (t := s.temp)
      have hr' := hr
      unfold frameStep at hr'
      have hz := timeStep_sizes hr'
      refine ⟨{ posdata := r.new, error := r.error, cache := r.cache, lastVel := r.lastVel, savedPos := some p,
                savedForces := some g, temp := t }, ?_, hr1, hz.1.trans h3, hz.2.1.trans h4,
        fun _ => ⟨.inr hr2, ⟨p, rfl⟩, g, rfl⟩⟩
      rw [run_succ, h1, Option.bind_some, hst, frame_eq he hS.every, hr, Option.bind_some, hp, Option.bind_some, hg,
        Option.bind_some, ht, Option.bind_some]

end

end SD.Move
