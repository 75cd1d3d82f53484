import Verif.Spec.Still
import Verif.Lemmas.Progress
import Verif.Props.Superpose

/-!
# Steps that change nothing
-/

set_option autoImplicit false

namespace SD.Move

open Spec Cov

section
variable {W : World} {S : Settings}

theorem getD_zero {α : Type} [Zero α] {l : List α} (h : ∀ x ∈ l, x = 0) (i : ℕ) : l.getD i 0 = 0 := by
  by_cases hi : i < l.length
  · rw [List.getD_eq_getElem _ _ hi]
    exact h _ (List.getElem_mem hi)
  · exact List.getD_eq_default _ _ (by omega)

theorem rep_zero {α : Type} [Zero α] (k : ℕ) : ∀ x ∈ List.replicate k (0 : α), x = 0 := fun _ h => List.eq_of_mem_replicate h

/-- A stage without loads: nothing moves, no forces. -/
theorem still_stage (hD : TableDissipates W.table) (hk : 0 < S.cutoff_factor) (hx : S.extract = false) {c : Config}
    (hc : Ready W S c) (hi : Idle W S c) {f : ℝ} {last : NDMat} {reg : Bool} {lv : Vel}
    (hl : S.use_drag_Minfinity = false → reg = false → Sound c.P last) :
    ∃ st, generate_output_FTSUOE W S c f last reg lv = some st ∧ Sound c.P st.cache ∧
      st.out.forces = noForces c ∧ (∀ m ∈ st.out.Ea, m = 0) ∧
      ∀ Ed : List Mat3, (∀ m ∈ Ed, m = 0) → (0 < c.P.Nd → Ed ≠ []) → stageVel c st Ed = some Vel.blank := by
  obtain ⟨st, hst, hs, hE, hE'⟩ := ready_stage hD hk hx hc (f := f) (lv := lv) hl
  refine ⟨st, hst, hs, ?_⟩
  obtain ⟨u, R, u2, hu, hR, e1, e2, hsol, eU, eO, -⟩ := output_some hst
  obtain ⟨r, hu2⟩ : ∃ r, W.input_ftsuoe c f S.timestep lv r = some u2 := by
    by_cases hf : S.input_form = .fte
    · obtain ⟨R', -, h⟩ := e2 hf
      exact ⟨_, h⟩
    · rw [e1 hf]
      exact ⟨_, hu⟩
  obtain ⟨u', hu', z1, -, hmu, hb, -⟩ := hc.answers f S.timestep lv none
  obtain rfl : u = u' := Option.some.inj (hu.symm.trans hu')
  obtain ⟨u'', hu'', z2, -⟩ := hc.answers f S.timestep lv r
  obtain rfl : u2 = u'' := Option.some.inj (hu2.symm.trans hu'')
  obtain ⟨i1, i2, n, hn, hecho, hzero⟩ := hi _ _ _ _ _ hu2
  have hsound : Sound c.P R := by
    obtain ⟨R1, C1, hR1, sR, -⟩ := grand_exists (only := S.use_Minfinity_only) hD hc.sensible hc.separate hk hc.tabulated
      hmu hc.beads hl
    have hnp : ¬ isPeriodic u.bl u.tr := by
      rw [hb]
      intro h
      unfold isPeriodic at h
      simp at h
    unfold stageResistance at hR
    rw [if_neg hnp, hR1] at hR
    obtain ⟨rfl, -⟩ := Prod.mk.inj (Option.some.inj hR)
    exact sR
  rw [hx] at hsol
  obtain ⟨z, hz, sm⟩ := C61_rest hc.allowed z2 hn hsound.rows hsound.cols (fun i _ j _ => hsound.symm i j) hsound.pos
    hecho (fun h0 m hm => by rw [hzero h0 m hm]; exact given_num33 0)
  obtain rfl : st.out = z := Option.some.inj (hsol.symm.trans hz)
  have hEa : ∀ m ∈ st.out.Ea, m = 0 := by
    have hstr := solve_strains hsol
    by_cases hf : S.input_form = .fts ∧ 0 < c.P.Ns
    · rw [if_pos hf] at hstr
      intro m hm
      have h1 := sm.Ea
      rw [← hstr, List.take_length] at h1
      rw [← h1] at hm
      exact List.eq_of_mem_replicate (List.mem_of_mem_take hm)
    · rw [if_neg hf] at hstr
      have hmap := floats33L_num hstr
      intro m hm
      have hin : num33 m ∈ u2.inp.Ea := by rw [hmap]; exact List.mem_map_of_mem hm
      by_cases h0 : c.P.Ns = 0
      · exact num33_inj (hzero h0 _ hin)
      have hin' : num33 m ∈ (List.replicate n (0 : Mat3)).map num33 := by
        cases hform : S.input_form with
        | fts => exact absurd ⟨hform, by omega⟩ hf
        | fte => rw [hform] at hecho; rw [← show u2.inp.Ea = (List.replicate n (0 : Mat3)).map num33 from hecho.2.2.1]; exact hin
        | ufte =>
          rw [hform] at hecho
          obtain ⟨k, -, -, -, -, e, -⟩ := hecho
          rw [← show u2.inp.Ea = (List.replicate n (0 : Mat3)).map num33 from e]; exact hin
        | ufteu =>
          rw [hform] at hecho
          obtain ⟨k, -, kd, -, -, -, -, e, -⟩ := hecho
          rw [← show u2.inp.Ea = (List.replicate n (0 : Mat3)).map num33 from e]; exact hin
        | duf => exact absurd hform (hc.allowed.2 (by omega))
      obtain ⟨y, hy, ey⟩ := List.mem_map.mp hin'
      rw [← num33_inj ey]
      exact List.eq_of_mem_replicate hy
  refine ⟨?_, hEa, fun Ed hEd hne => ?_⟩
  · show (⟨st.out.Fa, st.out.Fb, st.out.DFb, st.out.Sa⟩ : Forces) = _
    rw [← sm.Fa, ← sm.Fb, ← sm.DFb, ← sm.Sa]
    rfl
  · unfold stageVel
    rw [if_neg (by omega), if_neg (fun h => hne h.1 h.2)]
    have a1 : asArr st.out.Ua = fun _ => 0 := by
      funext i; unfold asArr; rw [← sm.Ua]; exact getD_zero (rep_zero _) i
    have a2 : asArr st.out.Oa = fun _ => 0 := by
      funext i; unfold asArr; rw [← sm.Oa]; exact getD_zero (rep_zero _) i
    have a3 : asArr st.out.Ub = fun _ => 0 := by
      funext i; unfold asArr; rw [← sm.Ub]; exact getD_zero (rep_zero _) i
    have a4 : asArr st.out.HalfDUb = fun _ => 0 := by
      funext i; unfold asArr; rw [← sm.HalfDUb]; exact getD_zero (rep_zero _) i
    have a5 : asArrM st.out.Ea = fun _ => 0 := by
      funext i; unfold asArrM; exact getD_zero hEa i
    have a6 : Ed.headD 0 = 0 := by
      cases Ed with
      | nil => rfl
      | cons x l => exact hEd x (by simp)
    rw [a1, a2, a3, a4, a5, a6, eU, eO, i1, i2]
    unfold add_background_flow_spheres add_background_flow_dumbbells Vel.blank
    have hcr : ∀ (x : Vec3) (k : Fin 3), npCross 0 x k = 0 := by
      intro x k; fin_cases k <;> simp [npCross]
    have hmv : ∀ (x : Vec3) (k : Fin 3), matVec3 0 x k = 0 := by
      intro x k; simp [matVec3]
    simp [hcr, hmv]

theorem euler_still (x : ℕ → Vec3) (dt : ℝ) : euler_timestep x (fun _ _ => 0) dt = x := by
  funext i k
  simp [euler_timestep]

theorem turn_still {c : Config} (ha : Arrows c) {dt : ℝ} {r : Rots}
    (h : euler_timestep_rotation c.P.Ns c.P.spherePos c.rots c.P.spherePos (fun _ _ => 0) dt = some r) : r = c.rots := by
  funext i j k
  by_cases hi : i < c.P.Ns
  · have := C28_still _ _ _ _ _ _ _ h ha i hi rfl j k
    linarith
  · unfold euler_timestep_rotation at h
    dsimp only at h
    split at h
    · rw [← Option.some.inj h]
      dsimp only
      rw [if_neg hi]
    · exact absurd h (by simp)

/-- A move without velocities. -/
theorem move_still {c c' : Config} (ha : Arrows c) {bl tr : Vec3} (hb : bl = tr) {st : Stage} {dt : ℝ} {e e' : Bool}
    (h : rk4Move S bl tr c st Vel.blank dt e = some (c', e')) : c' = c := by
  have p := move_parts h
  obtain ⟨z1, z2, z3, z4⟩ := p.sizes
  have h1 : c'.P.spherePos = c.P.spherePos ∧ c'.rots = c.rots := by
    by_cases hn : 0 < c.P.Ns
    · obtain ⟨a, b⟩ := p.spheres hn
      rw [wrapIf_same hb, show Vel.blank.Ua = fun _ _ => 0 from rfl, euler_still] at a
      rw [show Vel.blank.Ua = fun _ _ => 0 from rfl, euler_still, show Vel.blank.Oa = fun _ _ => 0 from rfl] at b
      exact ⟨(Option.some.inj a).symm, turn_still ha b⟩
    · exact p.noSpheres (by omega)
  have h2 : c'.P.dumbPos = c.P.dumbPos ∧ c'.P.dumbDx = c.P.dumbDx := by
    by_cases hn : 0 < c.P.Nd
    · obtain ⟨a, -, b⟩ := p.dumbs hn
      rw [wrapIf_same hb, show Vel.blank.Ub = fun _ _ => 0 from rfl, euler_still] at b
      rw [show (fun i k => 2 * Vel.blank.HalfDUb i k) = fun _ _ => 0 from by funext i k; simp [Vel.blank], euler_still] at a
      exact ⟨(Option.some.inj b).symm, a⟩
    · exact ⟨(p.noDumbs (by omega)).1, (p.noDumbs (by omega)).2.1⟩
  obtain ⟨P, rr⟩ := c
  obtain ⟨P', rr'⟩ := c'
  obtain ⟨_, _, _, _, _, _, _⟩ := P
  obtain ⟨_, _, _, _, _, _, _⟩ := P'
  dsimp only at h1 h2 z1 z2 z3 z4
  obtain ⟨rfl, rfl⟩ := h1
  obtain ⟨rfl, rfl⟩ := h2
  subst z1 z2 z3 z4
  rfl

/-- A Runge-Kutta step visits only the configuration itself. -/
theorem inner_still (hD : TableDissipates W.table) {c : Config} (hS : Runnable S c.P.Nd) (hc : Ready W S c)
    (hi : Idle W S c) (ha : Arrows c) {bl tr : Vec3} (hb : bl = tr) {f : ℕ} {lv : Vel} {last : NDMat} {reg : Bool}
    (hl : S.use_drag_Minfinity = false → reg = false → Sound c.P last) {d : Config}
    (h : Inner W S bl tr f c lv last reg d) : d = c := by
  obtain ⟨st1, v1, p1, a1, b1, m1, h⟩ := h
  obtain ⟨t1, x1, k1, -, z1, w1⟩ := still_stage hD hS.cutoff hS.extract hc hi (f := f) (lv := lv) hl
  obtain rfl : st1 = t1 := Option.some.inj (a1.symm.trans x1)
  have ne1 : 0 < c.P.Nd → st1.out.Ea ≠ [] := by
    intro hd h0
    unfold stageVel at b1
    split at b1
    · exact absurd b1 (by simp)
    · rw [if_pos ⟨hd, h0⟩] at b1
      exact absurd b1 (by simp)
  obtain rfl : Vel.blank = v1 := Option.some.inj ((w1 _ z1 ne1).symm.trans b1)
  have q1 : p1.1 = c := move_still (e' := p1.2) ha hb m1
  rcases h with rfl | ⟨st2, v2, p2, a2, b2, m2, h⟩
  · exact q1
  rw [q1] at a2
  obtain ⟨t2, x2, -, -, z2, w2⟩ := still_stage hD hS.cutoff hS.extract hc hi (f := f + 0.5) (lv := lv) (last := st1.cache)
    (reg := reg && S.rk4_each_stage) (fun _ _ => k1)
  obtain rfl : st2 = t2 := Option.some.inj (a2.symm.trans x2)
  obtain rfl : Vel.blank = v2 := Option.some.inj ((w2 _ z1 ne1).symm.trans b2)
  have q2 : p2.1 = c := move_still (e' := p2.2) ha hb m2
  rcases h with rfl | ⟨st3, v3, p3, a3, b3, m3, rfl⟩
  · exact q2
  rw [q2] at a3
  obtain ⟨t3, x3, -, -, z3, w3⟩ := still_stage hD hS.cutoff hS.extract hc hi (f := f + 0.5) (lv := lv) (last := st1.cache)
    (reg := reg && S.rk4_each_stage) (fun _ _ => k1)
  obtain rfl : st3 = t3 := Option.some.inj (a3.symm.trans x3)
  have ne3 : 0 < c.P.Nd → st3.out.Ea ≠ [] := by
    intro hd h0
    unfold stageVel at b3
    split at b3
    · exact absurd b3 (by simp)
    · rw [if_pos ⟨hd, h0⟩] at b3
      exact absurd b3 (by simp)
  obtain rfl : Vel.blank = v3 := Option.some.inj ((w3 _ z3 ne3).symm.trans b3)
  exact move_still (e' := p3.2) ha hb m3

theorem vel_list {c : Config} {st : Stage} {Ed : List Mat3} {v : Vel} (h : stageVel c st Ed = some v) :
    0 < c.P.Nd → Ed ≠ [] := by
  intro hd h0
  unfold stageVel at h
  split at h
  · exact absurd h (by simp)
  · rw [if_pos ⟨hd, h0⟩] at h
    exact absurd h (by simp)

theorem blend_blank : blend (fun _ _ => 0) (fun _ _ => 0) (fun _ _ => 0) (fun _ _ => 0) = fun _ _ => 0 := by
  funext i k
  simp [blend]

theorem blendRows_zero (k : ℕ) : blendRows (List.replicate k 0) (List.replicate k 0) (List.replicate k 0)
    (List.replicate k 0) = List.replicate k 0 := by
  unfold blendRows
  rw [List.length_replicate]
  refine List.eq_replicate_iff.mpr ⟨by simp, ?_⟩
  intro x hx
  obtain ⟨i, -, rfl⟩ := List.mem_map.mp hx
  funext k'
  rw [getD_zero (rep_zero k) i]
  simp

theorem blendMats_zero (k : ℕ) : blendMats (List.replicate k 0) (List.replicate k 0) (List.replicate k 0)
    (List.replicate k 0) = List.replicate k 0 := by
  unfold blendMats
  rw [List.length_replicate]
  refine List.eq_replicate_iff.mpr ⟨by simp, ?_⟩
  intro x hx
  obtain ⟨i, -, rfl⟩ := List.mem_map.mp hx
  funext k' m
  rw [getD_zero (rep_zero k) i]
  simp

theorem config_ext {c d : Config} (z : d.P.Ns = c.P.Ns ∧ d.P.Nd = c.P.Nd ∧ d.P.sphereSize = c.P.sphereSize ∧
    d.P.dumbSize = c.P.dumbSize) (h1 : d.P.spherePos = c.P.spherePos ∧ d.rots = c.rots)
    (h2 : d.P.dumbPos = c.P.dumbPos ∧ d.P.dumbDx = c.P.dumbDx) : d = c := by
  obtain ⟨P, rr⟩ := c
  obtain ⟨P', rr'⟩ := d
  obtain ⟨_, _, _, _, _, _, _⟩ := P
  obtain ⟨_, _, _, _, _, _, _⟩ := P'
  dsimp only at h1 h2 z
  obtain ⟨rfl, rfl⟩ := h1
  obtain ⟨rfl, rfl⟩ := h2
  obtain ⟨rfl, rfl, rfl, rfl⟩ := z
  rfl

/-- A step without loads changes nothing. -/
theorem step_still (hD : TableDissipates W.table) {c : Config} (hS : Runnable S c.P.Nd) (hc : Ready W S c)
    (hi : Idle W S c) (ha : Arrows c) {bl tr : Vec3} (hb : bl = tr) {f : ℕ} {last : NDMat} {reg : Bool}
    (hl : S.use_drag_Minfinity = false → reg = false → Sound c.P last) {r : StepResult}
    (h : timeStep W S bl tr f c Vel.blank last reg = some r) :
    r.new = c ∧ r.lastVel = Vel.blank ∧ r.forces = noForces c ∧ Sound c.P r.cache := by
  rcases timeStep_cases h with ⟨-, h⟩ | ⟨-, h⟩
  · obtain ⟨st, v0, v, p⟩ := euler_parts h
    obtain ⟨t, x, k, g, z, w⟩ := still_stage hD hS.cutoff hS.extract hc hi (f := f) (lv := Vel.blank) hl
    obtain rfl : st = t := Option.some.inj (p.stage.symm.trans x)
    obtain rfl : Vel.blank = v0 := Option.some.inj ((w _ z (vel_list p.vel)).symm.trans p.vel)
    have hv : v = Vel.blank := by
      rw [p.flat]
      split
      · have : zeroY Vel.blank.Ua = Vel.blank.Ua := by funext i k; simp [zeroY, Vel.blank]
        rw [this]
      · rfl
    subst hv
    refine ⟨config_ext p.sizes ?_ ?_, p.vel_eq, p.forces_eq.trans g, by rw [p.cache_eq]; exact k⟩
    · by_cases hn : 0 < c.P.Ns
      · obtain ⟨new, rots, e1, e2, e3, e4⟩ := p.spheres hn
        have hnew : new = c.P.spherePos := by
          rw [e1]
          split
          · exact euler_still _ _
          · funext i k; simp [ab2_timestep, Vel.blank]
        subst hnew
        rw [wrapIf_same hb] at e3
        refine ⟨(Option.some.inj e3).symm, ?_⟩
        rw [e4]
        split at e2
        · exact turn_still ha e2
        · unfold ab2_timestep_rotation at e2
          rw [show (fun i k => 1.5 * Vel.blank.Oa i k - 0.5 * Vel.blank.Oa i k) = fun _ _ => 0 from by
            funext i k; simp [Vel.blank]] at e2
          exact turn_still ha e2
      · exact p.noSpheres (by omega)
    · by_cases hn : 0 < c.P.Nd
      · obtain ⟨-, a, -, b⟩ := p.dumbs hn
        rw [wrapIf_same hb, show Vel.blank.Ub = fun _ _ => 0 from rfl, euler_still] at b
        rw [show (fun i k => 2 * Vel.blank.HalfDUb i k) = fun _ _ => 0 from by funext i k; simp [Vel.blank], euler_still] at a
        exact ⟨(Option.some.inj b).symm, a⟩
      · exact ⟨(p.noDumbs (by omega)).1, (p.noDumbs (by omega)).2.1⟩
  · obtain ⟨st, v, c1, c2, c3, e1, e2, e3, p⟩ := rk4_parts h
    obtain ⟨t1, x1, k1, g1, z1, w1⟩ := still_stage hD hS.cutoff hS.extract hc hi (f := f) (lv := Vel.blank) hl
    have s1 : t1 = st 0 := Option.some.inj (x1.symm.trans p.stage1)
    subst s1
    have v1 : v 0 = Vel.blank := Option.some.inj (p.vel1.symm.trans (w1 _ z1 (vel_list p.vel1)))
    have m1 := p.move1
    rw [v1] at m1
    obtain rfl := move_still ha hb m1
    obtain ⟨t2, x2, -, g2, z2, w2⟩ := still_stage hD hS.cutoff hS.extract hc hi (f := f + 0.5) (lv := Vel.blank)
      (last := (st 0).cache) (reg := reg && S.rk4_each_stage) (fun _ _ => k1)
    have s2 : t2 = st 1 := Option.some.inj (x2.symm.trans p.stage2)
    subst s2
    have v2 : v 1 = Vel.blank := Option.some.inj (p.vel2.symm.trans (w2 _ z1 (vel_list p.vel1)))
    have m2 := p.move2
    rw [v2] at m2
    have q2 := move_still ha hb m2
    have st3 := p.stage3
    rw [q2] at st3
    have s3 : st 1 = st 2 := Option.some.inj (x2.symm.trans st3)
    have v3 : v 2 = Vel.blank := by
      have h3 := p.vel3
      rw [← s3] at h3
      exact Option.some.inj (h3.symm.trans (w2 _ z2 (vel_list h3)))
    have m3 := p.move3
    rw [v3] at m3
    have q3 := move_still ha hb m3
    have st4 := p.stage4
    rw [q3] at st4
    obtain ⟨t4, x4, -, g4, z4, w4⟩ := still_stage hD hS.cutoff hS.extract hc hi (f := f + 1) (lv := Vel.blank)
      (last := (st 0).cache) (reg := reg && S.rk4_each_stage) (fun _ _ => k1)
    have s4 : t4 = st 3 := Option.some.inj (x4.symm.trans st4)
    subst s4
    have v4 : v 3 = Vel.blank := Option.some.inj (p.vel4.symm.trans (w4 _ z4 (vel_list p.vel4)))
    have hv : r.lastVel = Vel.blank := by
      rw [p.vel_eq, v1, v2, v3, v4]
      unfold Vel.blank
      dsimp only
      rw [blend_blank]
      have : zeroY (fun _ _ => 0) = fun _ _ => 0 := by funext i k; simp [zeroY]
      rw [this]
      simp
    refine ⟨config_ext p.sizes ?_ ?_, hv, ?_, by rw [p.cache_eq]; exact k1⟩
    · by_cases hn : 0 < c1.P.Ns
      · obtain ⟨a, b⟩ := p.spheres hn
        rw [hv] at a b
        rw [wrapIf_same hb, show Vel.blank.Ua = fun _ _ => 0 from rfl, euler_still] at a
        rw [← Option.some.inj a, show Vel.blank.Oa = fun _ _ => 0 from rfl] at b
        exact ⟨(Option.some.inj a).symm, turn_still ha b⟩
      · exact p.noSpheres (by omega)
    · by_cases hn : 0 < c1.P.Nd
      · obtain ⟨a, -, b⟩ := p.dumbs hn
        rw [hv] at a b
        rw [wrapIf_same hb, show Vel.blank.Ub = fun _ _ => 0 from rfl, euler_still] at b
        rw [show Vel.blank.HalfDUb = fun _ _ => 0 from rfl, euler_still] at a
        exact ⟨(Option.some.inj b).symm, a⟩
      · exact ⟨(p.noDumbs (by omega)).1, (p.noDumbs (by omega)).2.1⟩
    · have f1 : ∀ {o : Outputs}, o.forces = noForces c1 → o.Fa = List.replicate c1.P.Ns 0 ∧
          o.Fb = List.replicate c1.P.Nd 0 ∧ o.DFb = List.replicate c1.P.Nd 0 ∧ o.Sa = List.replicate c1.P.Ns 0 := by
        intro o ho
        exact ⟨congrArg Forces.Fa ho, congrArg Forces.Fb ho, congrArg Forces.DFb ho, congrArg Forces.Sa ho⟩
      obtain ⟨a1, b1, c1', d1⟩ := f1 g1
      obtain ⟨a2, b2, c2', d2⟩ := f1 g2
      obtain ⟨a4, b4, c4', d4⟩ := f1 g4
      rw [p.forces_eq, ← s3, a1, b1, c1', d1, a2, b2, c2', d2, a4, b4, c4', d4, blendRows_zero, blendRows_zero,
        blendMats_zero]
      rfl

end

end SD.Move
