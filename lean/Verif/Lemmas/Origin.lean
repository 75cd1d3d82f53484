import Verif.Props.ShippedInputs
import Verif.Lemmas.InputSymmetry

/-!
# A stage of the gravity problem seen from another origin
-/

set_option autoImplicit false

namespace SD.Ship

open SD SD.Spec

variable {n : ℕ} {form : InputForm} {W : World} {S : Settings}

theorem gravity_input (form : InputForm) (P : PosData) (f dt : ℝ) : input_ftsuoe 1 form P f dt
    = some { defaultUserInput form P with
        inp := { defaultInputs form P with Fa := List.replicate P.Ns (givenRow ![0, 0, -1]) } } := by
  unfold input_ftsuoe
  rw [if_pos rfl]
  rfl

/-- With gravity, the solution does not see where the origin is. -/
theorem gravity_stage (hW : Ships 1 form W) (c c' : Config) (t : Vec3) (h : c'.P = shift c.P t) (f : ℝ)
    (last : NDMat) (reg : Bool) (lv : Vel) :
    generate_output_FTSUOE W S c' f last reg lv = generate_output_FTSUOE W S c f last reg lv := by
  have e : ∀ r, W.input_ftsuoe c' f S.timestep lv r = W.input_ftsuoe c f S.timestep lv r := by
    intro r
    rw [hW, hW, h, gravity_input, gravity_input]
    rfl
  have hu : ∃ u, W.input_ftsuoe c f S.timestep lv none = some u ∧ u.bl = u.tr := by
    rw [hW, gravity_input]
    exact ⟨_, rfl, rfl⟩
  obtain ⟨u, hu, hb⟩ := hu
  have hn : ¬ isPeriodic u.bl u.tr := by
    unfold isPeriodic
    rw [hb]
    exact fun h => h fun k => sub_self _
  unfold generate_output_FTSUOE
  have hR : stageResistance W S c' last reg u = stageResistance W S c last reg u := by
    unfold stageResistance
    rw [if_neg hn, if_neg hn, h, Move.grand_shift]
  simp only [e, hu, Option.bind_eq_bind, Option.bind_some]
  rw [hR, h]
  rfl

/-- Two unit spheres one above the other, two radii apart. -/
noncomputable def towerP : PosData where
  Ns := 2
  Nd := 0
  sphereSize := fun _ => 1
  spherePos := fun i => if i = 0 then 0 else ![0, 0, 4]
  dumbSize := fun _ => 1
  dumbPos := fun _ => 0
  dumbDx := fun _ => 0

theorem towerP_radius {x : ℕ} (h : x < beads towerP) : radius towerP x = 1 := by
  unfold radius
  split_ifs <;> rfl

theorem tower_sq4 : √((4 : ℝ) ^ 2) = 4 := Real.sqrt_sq (by norm_num)

theorem towerP_len {x y : ℕ} (hx : x < beads towerP) (hy : y < beads towerP) (hxy : x ≠ y) :
    len (fun i => centre towerP x i - centre towerP y i) = 4 := by
  have hb : beads towerP = 2 := rfl
  rw [hb] at hx hy
  have : (x = 0 ∧ y = 1) ∨ (x = 1 ∧ y = 0) := by omega
  rcases this with ⟨rfl, rfl⟩ | ⟨rfl, rfl⟩ <;>
    simp [len, centre, towerP, Fin.sum_univ_three]

theorem towerP_separate : Separate towerP := by
  intro x hx y hy hxy
  rw [towerP_radius hx, towerP_radius hy, towerP_len hx hy hxy]
  norm_num

theorem towerP_sensible : Sensible towerP :=
  ⟨fun x hx => by rw [towerP_radius hx]; norm_num, fun x hx y hy hxy => by rw [towerP_len hx hy hxy]; norm_num⟩

theorem towerP_tabulated (k : ℝ) : Tabulated dampT.lam towerP k := by
  intro x hx y hy _
  rw [towerP_radius hx, towerP_radius hy]
  exact ⟨1, by norm_num [dampT], by norm_num⟩

/-- The strain at the lower sphere due to a unit force on the upper. -/
theorem tower_entry : pairMob 1 1 (.s 0) (.f 2) (fun i => centre towerP 0 i - centre towerP 1 i) ≠ 0 := by
  have hr : (fun i => centre towerP 0 i - centre towerP 1 i) = -(![0, 0, 4] : Vec3) := by
    funext i
    simp [centre, towerP]
  have h0 : (![0, 0, 4] : Vec3) ≠ 0 := fun h => by simpa using congrFun h 2
  have hl : len (![0, 0, 4] : Vec3) = 4 := by simp [len, Fin.sum_univ_three]
  rw [hr]
  simp only [pairMob, respTo]
  have e : ∀ i j, response 1 1 (.stress i j) (.force 2) (-(![0, 0, 4] : Vec3))
      = response 1 1 (.force 2) (.stress i j) ![0, 0, 4] := by
    intro i j
    rw [resp_recip (neg_ne_zero.mpr h0), neg_neg]
  simp only [e, resp_FS 1 1 _ _ _ h0, hl]
  have hs : 0 < √(3 : ℝ) := by positivity
  simp [five, tensorK, Lap_K, D_J, DLap_J, kron]
  intro h
  have : √(3 : ℝ) * (1 / 2 * (-1 / 8) + 1 / 160) = 0 := by linear_combination h
  norm_num at this

/-- Two spheres falling under gravity. -/
noncomputable def towerInp : Inputs :=
  { defaultInputs .fts towerP with Fa := List.replicate 2 (givenRow ![0, 0, -1]) }

theorem towerInp_sized : Sized towerP.Ns towerP.Nd towerInp := shipped_sized (gravity_input .fts towerP 0 0) (by simp)

/-- In the far field, the lower sphere is strained by the weight of the upper. -/
theorem tower_strained {last R C : NDMat} {k : ℝ} (hk : 0 < k) {bb : Bool} {out : Outputs}
    (h : generate_grand_resistance_matrix dampT towerP last true k false true 1 bb = some (R, C))
    (h2 : solveFTS 2 0 R towerInp = some out) :
    out.Ea.getD 0 0 ≠ 0 := by
  intro hE
  have hR : R = C := (C25_near_field h).2 rfl
  have hC := (C25_far_field h).2 rfl
  obtain ⟨hd, -⟩ := grand_dims towerP_sensible hk (towerP_tabulated k) (by simp) h
  obtain ⟨hs, hecho, -⟩ := C05_fts_correct towerInp_sized hd.1 h2
  obtain ⟨f1, f2, f3, f4, f5⟩ := hecho
  have hF : out.Fa = [![0, 0, -1], ![0, 0, -1]] :=
    List.map_injective_iff.mpr num3_inj (f1.symm.trans rfl)
  have hT : out.Ta = [0, 0] := List.map_injective_iff.mpr num3_inj (f2.symm.trans rfl)
  have hS : out.Sa = [0, 0] := List.map_injective_iff.mpr num33_inj (f3.symm.trans rfl)
  -- the row of the strain
  set V := pack 2 0 out.Ua out.Oa out.Ea out.Ub out.HalfDUb with hV
  set G := pack 2 0 out.Fa out.Ta out.Sa out.Fb out.DFb with hG
  have a1 : V 12 = 0 := by
    simp only [hV, pack]
    norm_num
    rw [List.getD_eq_getElem?_getD] at hE
    rw [hE]
    simp [five]
  have a2 := (hC V 12 (by simp [side, towerP])).2
  have a3 : mulVec (side towerP) (generate_Minfinity towerP 1 bb).get (mulVec (side towerP) C.get V) 12
      = mulVec 22 (generate_Minfinity towerP 1 bb).get G 12 := by
    show mulVec 22 _ _ _ = _
    unfold mulVec
    refine Finset.sum_congr rfl fun j hj => ?_
    have := hs.rel j (Finset.mem_range.mp hj)
    rw [hR] at this
    exact congrArg _ this
  have g : ∀ j < 22, G j = if j = 2 ∨ j = 5 then -1 else 0 := by
    intro j hj
    simp only [hG, hF, hT, hS]
    interval_cases j <;> simp [pack, five]
  rw [a1, a3] at a2
  have a4 : mulVec 22 (generate_Minfinity towerP 1 bb).get G 12
      = -(generate_Minfinity towerP 1 bb).get 12 2 - (generate_Minfinity towerP 1 bb).get 12 5 := by
    unfold mulVec
    rw [Finset.sum_congr rfl fun j hj => by rw [g j (Finset.mem_range.mp hj)]]
    simp [Finset.sum_range_succ]
    ring
  have e1 := C48_entry towerP_sensible 1 bb (x := 0) (y := 0) (c1 := .s 0) (c2 := .f 2) (by simp [HasRow, towerP])
    (by simp [HasRow, towerP])
  have e2 := C48_entry towerP_sensible 1 bb (x := 0) (y := 1) (c1 := .s 0) (c2 := .f 2) (by simp [HasRow, towerP])
    (by simp [HasRow, towerP])
  have e3 : generate_Minfinity towerP 1 bb
      = generate_Minfinity_loop (NDMat.zeros (side towerP) (side towerP)) towerP (1 / (8 * Real.pi * 1)) 1 bb := by
    unfold generate_Minfinity
    exact if_neg (by simp [towerP])
  have e4 : (generate_Minfinity towerP 1 bb).get 12 2 = 0 := by
    rw [e3]
    refine Eq.trans ?_ (e1.trans ?_)
    · simp [row, towerP]
    · simp [systemMob, selfMob]
  have e5 : (generate_Minfinity towerP 1 bb).get 12 5
      = 1 / (8 * Real.pi * 1) * pairMob 1 1 (.s 0) (.f 2) (fun i => centre towerP 0 i - centre towerP 1 i) := by
    rw [e3]
    refine Eq.trans ?_ (e2.trans ?_)
    · simp [row, towerP]
    · unfold systemMob
      rw [if_neg (by norm_num), if_neg (by simp [towerP]), towerP_radius (x := 0) (by simp [beads, towerP]),
        towerP_radius (x := 1) (by simp [beads, towerP])]
      unfold sep
      rw [towerP_len (by simp [beads, towerP]) (by simp [beads, towerP]) (by norm_num), if_neg (by norm_num)]
  rw [a4, e4, e5] at a2
  have := tower_entry
  have hpi := Real.pi_pos
  have h8 : (1 : ℝ) / (8 * Real.pi * 1) ≠ 0 := by positivity
  exact mul_ne_zero h8 this (by linarith)

/-- `N` Euler frames with forces and stresslets prescribed, in the far field only. -/
noncomputable def towerSettings (N : ℕ) : Settings := { loneSettings .euler N with input_form := .fts }

end SD.Ship
