import Verif.Spec.Nearby
import Verif.Lemmas.CovarianceParts
import Verif.Lemmas.Perturb
import Verif.Props.NearField
import Mathlib.Topology.LocallyFinite

/-!
# The matrices as functions of the places of the particles
-/

set_option autoImplicit false

namespace SD.Nearby

open Spec Filter Topology Cov

/-! ## Interpolation -/

theorem interp_continuous {xs : List ℝ} (h : Ascending xs) (f : ℕ → ℝ) : Continuous fun x => npInterp x xs f := by
  obtain ⟨hne, hx⟩ := h
  obtain ⟨-, h2, h3, h4⟩ := C22_interp hx hne f
  have hlen : 0 < xs.length := List.length_pos_iff.mpr hne
  let n := xs.length
  let A : ℕ → Set ℝ := fun k =>
    if k = 0 then Set.Iic (xs.getD 0 0) else if k < n then Set.Icc (xs.getD (k - 1) 0) (xs.getD k 0)
    else if k = n then Set.Ici (xs.getD (n - 1) 0) else ∅
  have hfin : LocallyFinite fun k : Fin (n + 1) => A k := locallyFinite_of_finite _
  refine hfin.continuous ?_ (fun k => ?_) fun k => ?_
  · rw [Set.eq_univ_iff_forall]
    intro x
    rw [Set.mem_iUnion]
    by_contra hc
    push Not at hc
    have up : ∀ k, k < n → xs.getD k 0 < x := by
      intro k
      induction k with
      | zero =>
        intro _
        have := hc ⟨0, by omega⟩
        simp only [A, if_true, Set.mem_Iic, not_le] at this
        exact this
      | succ k ih =>
        intro hk
        have := hc ⟨k + 1, by omega⟩
        simp only [A, Nat.add_one_ne_zero, if_false, hk, if_true, Set.mem_Icc, Nat.add_sub_cancel, not_and, not_le] at this
        exact this (ih (by omega)).le
    have := hc ⟨n, by omega⟩
    have n0 : n ≠ 0 := by omega
    simp only [A, n0, if_false, lt_irrefl, if_true, Set.mem_Ici, not_le] at this
    linarith [up (n - 1) (by omega)]
  · dsimp only [A]
    split_ifs
    · exact isClosed_Iic
    · exact isClosed_Icc
    · exact isClosed_Ici
    · exact isClosed_empty
  · dsimp only [A]
    split_ifs with e0 e1 e2
    · exact continuousOn_const.congr fun x hx => h3 x hx
    · refine ContinuousOn.congr (f := fun x => f (k - 1) + (f (k - 1 + 1) - f (k - 1)) * ((x - xs.getD (k - 1) 0)
        / (xs.getD (k - 1 + 1) 0 - xs.getD (k - 1) 0))) (by fun_prop) fun x hx => ?_
      have e : (k : ℕ) - 1 + 1 = k := by omega
      exact (h2 (k - 1) x (by omega) hx.1 (by rw [e]; exact hx.2)).1
    · exact continuousOn_const.congr fun x hx => h4 x hx
    · exact continuousOn_empty _

/-! ## Far field -/

variable {β : Type} {F : Filter β}

theorem len_continuous : Continuous (len : Vec3 → ℝ) := by
  unfold len
  fun_prop

theorem len_tendsto {r : β → Vec3} {r0 : Vec3} (h : Tendsto r F (𝓝 r0)) : Tendsto (fun t => len (r t)) F (𝓝 (len r0)) :=
  (len_continuous.tendsto r0).comp h

theorem sep_continuousAt {r0 : Vec3} (h : 0 < len r0) (a b : ℝ) : ContinuousAt (fun r => sep r a b) r0 := by
  set m := 2.001 * ((a + b) / 2) with hm
  have e : (fun r => sep r a b) =ᶠ[𝓝 r0] fun r i => max 1 (m / len r) * r i := by
    have : ∀ᶠ r in 𝓝 r0, 0 < len r := (len_continuous.tendsto r0).eventually (lt_mem_nhds h)
    filter_upwards [this] with r hr
    unfold sep
    split_ifs with hc
    · rw [← hm] at *
      funext i
      rw [max_eq_right (by rw [le_div_iff₀ hr]; linarith)]
    · funext i
      rw [← hm] at hc
      rw [max_eq_left (by rw [div_le_one hr]; linarith), one_mul]
  refine ContinuousAt.congr ?_ e.symm
  rw [continuousAt_pi]
  intro i
  have h1 : ContinuousAt len r0 := len_continuous.continuousAt
  exact (continuousAt_const.max (continuousAt_const.div h1 h.ne')).mul (continuous_apply i).continuousAt

theorem flow_sm (b : ℝ) (l : Load) (m : Fin 3) : Sm (flow b l m) := by
  cases l with
  | force j => exact flow_force_sm b j m
  | torque j => exact flow_torque_sm b j m
  | stress j k => exact flow_stress_sm b j k m

theorem response_sm (a b : ℝ) (l1 l2 : Load) : Sm (response a b l1 l2) := by
  have g := flow_sm b l2
  cases l1 with
  | force i => exact (g i).add ((g i).lap.const_mul _)
  | torque i => exact Sm.const_mul _ (Sm.sum _ fun k _ => Sm.sum _ fun l _ => ((g l).pd k).const_mul _)
  | stress i j =>
    exact ((((g i).pd j).add ((g j).pd i)).const_mul _).add
      (((((g i).pd j).lap.add ((g j).pd i).lap).const_mul _).const_mul _)

theorem respTo_sm (a b : ℝ) (l : Load) (c : Comp) : Sm (respTo a b l c) := by
  cases c with
  | f j => exact response_sm a b l _
  | t j => exact response_sm a b l _
  | s q => exact Sm.sum _ fun j _ => Sm.sum _ fun k _ => (response_sm a b l _).const_mul _

theorem Sm.cont {f : Vec3 → ℝ} (h : Sm f) {r : Vec3} (hr : r ≠ 0) : ContinuousAt f r := (h r hr).continuousAt

theorem five_cont {f : Vec3 → Fin 3 → Fin 3 → ℝ} {r : Vec3} (h : ∀ i j, ContinuousAt (fun r => f r i j) r) (p : Fin 5) :
    ContinuousAt (fun r => five (f r) p) r := by
  unfold five
  fin_cases p <;> simp <;> fun_prop

theorem pairMob_cont (a b : ℝ) (c1 c2 : Comp) {r : Vec3} (hr : r ≠ 0) : ContinuousAt (pairMob a b c1 c2) r := by
  cases c1 with
  | f i => exact Sm.cont (respTo_sm a b _ c2) hr
  | t i => exact Sm.cont (respTo_sm a b _ c2) hr
  | s p => exact five_cont (fun i j => Sm.cont (respTo_sm a b _ c2) hr) p

section
variable {P : β → PosData} {P0 : PosData} (hA : Approaches F P P0)
include hA

theorem gap_tendsto {x y : ℕ} (hx : x < beads P0) (hy : y < beads P0) :
    Tendsto (fun t (i : Fin 3) => centre (P t) x i - centre (P t) y i) F (𝓝 fun i => centre P0 x i - centre P0 y i) :=
  tendsto_pi_nhds.mpr fun i => (hA.place x hx i).sub (hA.place y hy i)

theorem same_side (t : β) : side (P t) = side P0 := by unfold side; rw [hA.Ns, hA.Nd]

theorem same_count (t : β) : beads (P t) = beads P0 := by unfold beads; rw [hA.Ns, hA.Nd]

/-- Nearby places are sensible if the limit is. -/
theorem sensible_eventually (h0 : Sensible P0) : ∀ᶠ t in F, Sensible (P t) := by
  have : ∀ᶠ t in F, ∀ x ∈ Finset.range (beads P0), ∀ y ∈ Finset.range (beads P0), x ≠ y →
      1 / 10 ^ 8 < len fun i => centre (P t) x i - centre (P t) y i := by
    refine (eventually_all_finset _).mpr fun x hx => (eventually_all_finset _).mpr fun y hy => ?_
    rw [Finset.mem_range] at hx hy
    by_cases hxy : x = y
    · exact Eventually.of_forall fun t h => absurd hxy h
    · exact ((len_tendsto (gap_tendsto hA hx hy)).eventually (lt_mem_nhds (h0.apart x hx y hy hxy))).mono fun t h _ => h
  filter_upwards [this] with t ht
  constructor
  · intro x hx
    rw [same_count hA] at hx
    rw [hA.size t x hx]
    exact h0.radius_pos x hx
  · intro x hx y hy hxy
    rw [same_count hA] at hx hy
    exact ht x (Finset.mem_range.mpr hx) y (Finset.mem_range.mpr hy) hxy

theorem system_tendsto (h0 : Sensible P0) (mu : ℝ) (bb : Bool) {x y : ℕ} (hx : x < beads P0) (hy : y < beads P0)
    (c1 c2 : Comp) :
    Tendsto (fun t => systemMob (P t).Ns bb (centre (P t)) (radius (P t)) mu x c1 y c2) F
      (𝓝 (systemMob P0.Ns bb (centre P0) (radius P0) mu x c1 y c2)) := by
  unfold systemMob
  simp only [hA.Ns, hA.size _ x hx, hA.size _ y hy]
  by_cases hxy : x = y
  · simp only [if_pos hxy]; exact tendsto_const_nhds
  simp only [if_neg hxy]
  split_ifs with hb
  · exact tendsto_const_nhds
  refine Tendsto.const_mul _ ?_
  have hl := h0.apart x hx y hy hxy
  have hn := sep_ne (h0.radius_pos x hx) (h0.radius_pos y hy) hl
  exact ((pairMob_cont _ _ c1 c2 hn.1).tendsto.comp
    ((sep_continuousAt (lt_trans (by norm_num) hl) _ _).tendsto.comp (gap_tendsto hA hx hy)))

theorem farB_tendsto (h0 : Sensible P0) (mu : ℝ) (bb : Bool) {i j : ℕ} (hi : i < side P0) (hj : j < side P0) :
    Tendsto (fun t => (farB (P t) mu bb).get i j) F (𝓝 ((farB P0 mu bb).get i j)) := by
  obtain ⟨u, c1, hu, rfl⟩ := (C48_rows P0).1 i hi
  obtain ⟨v, c2, hv, rfl⟩ := (C48_rows P0).1 j hj
  have e0 := C48_entry h0 mu bb hu hv
  unfold farB
  rw [e0]
  refine (system_tendsto hA h0 mu bb (owns_lt (owns_kind hu)) (owns_lt (owns_kind hv)) c1 c2).congr' ?_
  filter_upwards [sensible_eventually hA h0] with t ht
  have e := C48_entry ht mu bb (x := u) (y := v) (c1 := c1) (c2 := c2) (by rw [hA.Ns, hA.Nd]; exact hu)
    (by rw [hA.Ns, hA.Nd]; exact hv)
  rw [← e, hA.Ns]

theorem far_tendsto (h0 : Sensible P0) (mu : ℝ) (bb : Bool) {i j : ℕ} (hi : i < side P0) (hj : j < side P0) :
    Tendsto (fun t => (generate_Minfinity (P t) mu bb).get i j) F (𝓝 ((generate_Minfinity P0 mu bb).get i j)) := by
  unfold generate_Minfinity
  dsimp only
  simp only [hA.Ns, hA.Nd]
  have key : ∀ {i j : ℕ}, i < side P0 → j < side P0 →
      Tendsto (fun t => (generate_Minfinity_loop (NDMat.zeros (11 * P0.Ns + 6 * P0.Nd) (11 * P0.Ns + 6 * P0.Nd)) (P t)
        (1 / (8 * Real.pi * mu)) mu bb).get i j) F
      (𝓝 ((generate_Minfinity_loop (NDMat.zeros (11 * P0.Ns + 6 * P0.Nd) (11 * P0.Ns + 6 * P0.Nd)) P0
        (1 / (8 * Real.pi * mu)) mu bb).get i j)) := by
    intro i j hi hj
    refine (farB_tendsto hA h0 mu bb hi hj).congr fun t => ?_
    unfold farB
    rw [same_side hA]; rfl
  by_cases hN : P0.Nd > 0
  · simp only [if_pos hN]
    have c1 : ∀ P' : PosData, (generate_Minfinity_loop (NDMat.zeros (11 * P0.Ns + 6 * P0.Nd) (11 * P0.Ns + 6 * P0.Nd)) P'
        (1 / (8 * Real.pi * mu)) mu bb).cols = side P0 := fun P' => (loop_dims P' _ mu bb _).2
    simp only [NDMat.dot, NDMat.transpose, c1]
    refine tendsto_finsetSum _ fun k hk => Tendsto.mul_const _ (tendsto_finsetSum _ fun l hl => Tendsto.const_mul _ ?_)
    exact key (Finset.mem_range.mp hl) (Finset.mem_range.mp hk)
  · simp only [if_neg hN]
    exact key hi hj

/-! ## Near field -/

theorem link_tendsto {k : ℝ} (h0 : Sensible P0) (hk : ¬ AtRange k P0) {x y : ℕ} (hx : x < beads P0) (hy : y < beads P0)
    (hxy : x ≠ y) :
    ((∀ᶠ t in F, openLink k (centre (P t)) (radius (P t)) x y = none) ∧ openLink k (centre P0) (radius P0) x y = none) ∨
    ∃ (d : β → Vec3) (s : β → ℝ) (d0 : Vec3) (s0 : ℝ),
      (∀ᶠ t in F, openLink k (centre (P t)) (radius (P t)) x y = some (d t, s t)) ∧
      openLink k (centre P0) (radius P0) x y = some (d0, s0) ∧ Tendsto d F (𝓝 d0) ∧ Tendsto s F (𝓝 s0) := by
  set m := (radius P0 x + radius P0 y) / 2 with hm
  have m0 : 0 < m := by have := h0.radius_pos x hx; have := h0.radius_pos y hy; rw [hm]; linarith
  have gt := gap_tendsto hA hy hx
  have lt := len_tendsto gt
  have st := lt.div_const m
  have hl0 : len (fun i => centre P0 y i - centre P0 x i) ≠ 0 := by
    have := h0.apart y hy x hx (Ne.symm hxy)
    exact (lt_trans (by norm_num) this).ne'
  have e : ∀ t, openLink k (centre (P t)) (radius (P t)) x y =
      if len (fun i => centre (P t) y i - centre (P t) x i) / m < 2 * k then
        some (fun i => (centre (P t) y i - centre (P t) x i) / len (fun i => centre (P t) y i - centre (P t) x i),
          len (fun i => centre (P t) y i - centre (P t) x i) / m) else none := by
    intro t
    unfold openLink
    rw [hA.size t x hx, hA.size t y hy]
  have e0 : openLink k (centre P0) (radius P0) x y =
      if len (fun i => centre P0 y i - centre P0 x i) / m < 2 * k then
        some (fun i => (centre P0 y i - centre P0 x i) / len (fun i => centre P0 y i - centre P0 x i),
          len (fun i => centre P0 y i - centre P0 x i) / m) else none := rfl
  have hne : len (fun i => centre P0 y i - centre P0 x i) / m ≠ 2 * k := by
    intro h
    refine hk ⟨y, hy, x, hx, Ne.symm hxy, ?_⟩
    rw [div_eq_iff m0.ne'] at h
    rw [h, hm]; ring
  rcases lt_or_gt_of_ne hne with h | h
  · right
    refine ⟨fun t i => (centre (P t) y i - centre (P t) x i) / len (fun i => centre (P t) y i - centre (P t) x i),
      _, _, _, ?_, e0.trans (if_pos h), ?_, st⟩
    · filter_upwards [st.eventually (gt_mem_nhds h)] with t ht
      rw [e t, if_pos ht]
    · exact tendsto_pi_nhds.mpr fun i => ((tendsto_pi_nhds.mp gt) i).div lt hl0
  · left
    refine ⟨?_, e0.trans (if_neg (by linarith))⟩
    filter_upwards [st.eventually (lt_mem_nhds h)] with t ht
    rw [e t, if_neg (by linarith)]

end

/-- The scalars read off tables tend to those in the limit. -/
structure ScalTo (F : Filter β) (z : β → Scalars) (z0 : Scalars) : Prop where
  XA : Tendsto (fun t => (z t).XA) F (𝓝 z0.XA)
  YA : Tendsto (fun t => (z t).YA) F (𝓝 z0.YA)
  YB : Tendsto (fun t => (z t).YB) F (𝓝 z0.YB)
  XC : Tendsto (fun t => (z t).XC) F (𝓝 z0.XC)
  YC : Tendsto (fun t => (z t).YC) F (𝓝 z0.YC)
  XG : Tendsto (fun t => (z t).XG) F (𝓝 z0.XG)
  YG : Tendsto (fun t => (z t).YG) F (𝓝 z0.YG)
  YH : Tendsto (fun t => (z t).YH) F (𝓝 z0.YH)
  XM : Tendsto (fun t => (z t).XM) F (𝓝 z0.XM)
  YM : Tendsto (fun t => (z t).YM) F (𝓝 z0.YM)
  ZM : Tendsto (fun t => (z t).ZM) F (𝓝 z0.ZM)

theorem scal_tendsto {T : ScalarTable} (hT : Ascending T.sDash) (g : ℕ) (lam : ℝ) {s : β → ℝ} {s0 : ℝ}
    (h : Tendsto s F (𝓝 s0)) : ScalTo F (fun t => tableScal T g lam (s t)) (tableScal T g lam s0) := by
  have : ∀ k l, Tendsto (fun t => XYZ T k g (s t) l) F (𝓝 (XYZ T k g s0 l)) := fun k l =>
    ((interp_continuous hT fun n => T.raw k g n l).tendsto s0).comp h
  constructor <;> exact this _ _

section
variable {z : β → Scalars} {z0 : Scalars} {d : β → Vec3} {d0 : Vec3}

theorem dotp_tendsto {x y : β → Vec3} {x0 y0 : Vec3} (hx : ∀ i, Tendsto (fun t => x t i) F (𝓝 (x0 i)))
    (hy : ∀ i, Tendsto (fun t => y t i) F (𝓝 (y0 i))) : Tendsto (fun t => dotp (x t) (y t)) F (𝓝 (dotp x0 y0)) :=
  (((hx 0).mul (hy 0)).add ((hx 1).mul (hy 1))).add ((hx 2).mul (hy 2))

theorem cross_tendsto {x y : β → Vec3} {x0 y0 : Vec3} (hx : ∀ i, Tendsto (fun t => x t i) F (𝓝 (x0 i)))
    (hy : ∀ i, Tendsto (fun t => y t i) F (𝓝 (y0 i))) (i : Fin 3) :
    Tendsto (fun t => cross (x t) (y t) i) F (𝓝 (cross x0 y0 i)) := by
  unfold cross
  fin_cases i
  · exact ((hx 1).mul (hy 2)).sub ((hx 2).mul (hy 1))
  · exact ((hx 2).mul (hy 0)).sub ((hx 0).mul (hy 2))
  · exact ((hx 0).mul (hy 1)).sub ((hx 1).mul (hy 0))

theorem five_tendsto {f : β → Fin 3 → Fin 3 → ℝ} {f0 : Fin 3 → Fin 3 → ℝ}
    (h : ∀ i j, Tendsto (fun t => f t i j) F (𝓝 (f0 i j))) (p : Fin 5) :
    Tendsto (fun t => five (f t) p) F (𝓝 (five f0 p)) := by
  have : Continuous fun g : Fin 3 → Fin 3 → ℝ => five g p := by
    unfold five
    fin_cases p <;> simp <;> fun_prop
  exact (this.tendsto f0).comp (tendsto_pi_nhds.mpr fun i => tendsto_pi_nhds.mpr fun j => h i j)

theorem direct_tendsto (hz : ScalTo F z z0) (hd : ∀ i, Tendsto (fun t => d t i) F (𝓝 (d0 i))) (a : ℝ) (c1 c2 : Comp) :
    Tendsto (fun t => nearDirect (z t) a (d t) c1 c2) F (𝓝 (nearDirect z0 a d0 c1 c2)) := by
  have cst : ∀ U : Vec3, ∀ i, Tendsto (fun _ : β => U i) F (𝓝 (U i)) := fun U i => tendsto_const_nhds
  have force : ∀ (U : Vec3) i, Tendsto (fun t => nearForce (z t) a (d t) U i) F (𝓝 (nearForce z0 a d0 U i)) := by
    intro U i
    have dU := dotp_tendsto hd (cst U)
    exact Tendsto.const_mul _ ((hz.XA.mul (dU.mul (hd i))).add (hz.YA.mul (tendsto_const_nhds.sub (dU.mul (hd i)))))
  have torque : ∀ (U O : Vec3) i, Tendsto (fun t => nearTorque (z t) a (d t) U O i) F (𝓝 (nearTorque z0 a d0 U O i)) := by
    intro U O i
    have dO := dotp_tendsto hd (cst O)
    exact (Tendsto.const_mul _ (hz.YB.mul (cross_tendsto (cst U) hd i))).add
      (Tendsto.const_mul _ ((hz.XC.mul (dO.mul (hd i))).add (hz.YC.mul (tendsto_const_nhds.sub (dO.mul (hd i))))))
  have stress : ∀ (U O : Vec3) (E : Fin 3 → Fin 3 → ℝ) i j,
      Tendsto (fun t => nearStress (z t) a (d t) U O E i j) F (𝓝 (nearStress z0 a d0 U O E i j)) := by
    intro U O E i j
    have dU := dotp_tendsto hd (cst U)
    have dd := fun i j => (hd i).mul (hd j)
    have Ed : ∀ i, Tendsto (fun t => app E (d t) i) F (𝓝 (app E d0 i)) := fun i => dotp_tendsto (cst (E i)) hd
    have dEd := dotp_tendsto hd Ed
    have Od := cross_tendsto (cst O) hd
    refine ((Tendsto.const_mul _ ((hz.XG.mul ?_).add (hz.YG.mul ?_))).add (Tendsto.const_mul _ (hz.YH.mul ?_))).add
      (Tendsto.const_mul _ (((hz.XM.mul ?_).add (hz.YM.mul ?_)).add (hz.ZM.mul ?_)))
    · exact ((dd i j).sub_const _).mul dU
    · exact (((hd i).mul_const _).add ((hd j).const_mul _)).sub (Tendsto.const_mul _ ((dd i j).mul dU))
    · exact ((Od i).mul (hd j)).add ((hd i).mul (Od j))
    · exact Tendsto.const_mul _ (((dd i j).sub_const _).mul dEd)
    · exact (((hd i).mul (Ed j)).add ((Ed i).mul (hd j))).sub (Tendsto.const_mul _ ((dd i j).mul dEd))
    · exact ((tendsto_const_nhds.sub ((hd i).mul (Ed j))).sub ((Ed i).mul (hd j))).add
        (Tendsto.const_mul _ (((dd i j).add_const _).mul dEd))
  cases c1 <;> cases c2 <;> simp only [nearDirect]
  · exact force _ _
  · exact tendsto_const_nhds
  · exact tendsto_const_nhds
  · exact torque _ _ _
  · exact torque _ _ _
  · exact tendsto_const_nhds
  · exact five_tendsto (fun i j => stress _ _ _ i j) _
  · exact five_tendsto (fun i j => stress _ _ _ i j) _
  · exact five_tendsto (fun i j => stress _ _ _ i j) _

end

section
variable {z z' : β → Scalars} {z0 z0' : Scalars} {d : β → Vec3} {d0 : Vec3}

theorem self_tendsto (hz : ScalTo F z z0) (hd : Tendsto d F (𝓝 d0)) (a : ℝ) (c1 c2 : Comp) :
    Tendsto (fun t => nearSelf (z t) a (d t) c1 c2) F (𝓝 (nearSelf z0 a d0 c1 c2)) := by
  have hd := tendsto_pi_nhds.mp hd
  unfold nearSelf
  split_ifs
  · exact direct_tendsto hz hd a c1 c2
  · exact direct_tendsto hz hd a c2 c1

theorem nearPair_tendsto (hz : ScalTo F z z0) (hz' : ScalTo F z' z0') (hd : Tendsto d F (𝓝 d0)) (first : Prop)
    [Decidable first] (a b : ℝ) (c1 c2 : Comp) :
    Tendsto (fun t => nearPair (z t) (z' t) first a b (d t) c1 c2) F (𝓝 (nearPair z0 z0' first a b d0 c1 c2)) := by
  have hd := tendsto_pi_nhds.mp hd
  unfold nearPair
  split_ifs
  · exact direct_tendsto hz hd a c1 c2
  · exact direct_tendsto hz' (fun i => (hd i).neg) b c2 c1

end

section
variable {P : β → PosData} {P0 : PosData} (hA : Approaches F P P0) {T : ScalarTable} {k : ℝ} (hT : Ascending T.sDash)
  (h0 : Sensible P0) (hr : ¬ AtRange k P0)
include hA hT h0 hr

theorem systemNear_tendsto (bb : Bool) {x y : ℕ} (hx : x < beads P0) (hy : y < beads P0) (c1 c2 : Comp) :
    Tendsto (fun t => systemNear (P t).Ns (beads (P t)) bb (radius (P t)) (tableScal T)
        (openLink k (centre (P t)) (radius (P t))) x c1 y c2) F
      (𝓝 (systemNear P0.Ns (beads P0) bb (radius P0) (tableScal T) (openLink k (centre P0) (radius P0)) x c1 y c2)) := by
  unfold systemNear
  simp only [hA.Ns, same_count hA, hA.size _ x hx, hA.size _ y hy]
  by_cases hxy : x = y
  · simp only [if_pos hxy]
    refine tendsto_finsetSum _ fun w hw => ?_
    rw [Finset.mem_range] at hw
    by_cases e : w = x
    · simp only [if_pos e]; exact tendsto_const_nhds
    simp only [if_neg e, hA.size _ w hw]
    rcases link_tendsto hA h0 hr hx hw (Ne.symm e) with ⟨h1, h2⟩ | ⟨d, s, d0, s0, h1, h2, h3, h4⟩
    · rw [h2]
      refine (tendsto_const_nhds (x := (0 : ℝ))).congr' ?_
      filter_upwards [h1] with t ht
      rw [ht]
    · rw [h2]
      refine (self_tendsto (scal_tendsto hT 0 (radius P0 w / radius P0 x) h4) h3 (radius P0 x) c1 c2).congr' ?_
      filter_upwards [h1] with t ht
      rw [ht]
  · simp only [if_neg hxy]
    split_ifs with hb
    · exact tendsto_const_nhds
    rcases link_tendsto hA h0 hr hx hy hxy with ⟨h1, h2⟩ | ⟨d, s, d0, s0, h1, h2, h3, h4⟩
    · rw [h2]
      refine (tendsto_const_nhds (x := (0 : ℝ))).congr' ?_
      filter_upwards [h1] with t ht
      rw [ht]
    · rw [h2]
      refine (nearPair_tendsto (scal_tendsto hT 1 (radius P0 y / radius P0 x) h4)
        (scal_tendsto hT 1 (radius P0 x / radius P0 y) h4) h3 (x < y) (radius P0 x) (radius P0 y) c1 c2).congr' ?_
      filter_upwards [h1] with t ht
      rw [ht]

omit hT in
theorem tabulated_eventually {lams : List ℝ} (hT : Tabulated lams P0 k) : ∀ᶠ t in F, Tabulated lams (P t) k := by
  have : ∀ᶠ t in F, ∀ x ∈ Finset.range (beads P0), ∀ y ∈ Finset.range (beads P0), x ≠ y →
      openLink k (centre (P t)) (radius (P t)) x y ≠ none → openLink k (centre P0) (radius P0) x y ≠ none := by
    refine (eventually_all_finset _).mpr fun x hx => (eventually_all_finset _).mpr fun y hy => ?_
    rw [Finset.mem_range] at hx hy
    by_cases hxy : x = y
    · exact Eventually.of_forall fun t h => absurd hxy h
    rcases link_tendsto hA h0 hr hx hy hxy with ⟨h1, h2⟩ | ⟨d, s, d0, s0, h1, h2, h3, h4⟩
    · filter_upwards [h1] with t ht _ h
      exact absurd ht h
    · exact Eventually.of_forall fun t _ _ => by rw [h2]; simp
  filter_upwards [this] with t ht
  intro x hx y hy h
  rw [same_count hA] at hx hy
  rw [hA.size t x hx, hA.size t y hy]
  refine hT x hx y hy ?_
  by_cases hxy : x = y
  · exact .inl hxy
  · exact .inr (ht x (Finset.mem_range.mpr hx) y (Finset.mem_range.mpr hy) hxy (h.resolve_left hxy))

theorem near_tendsto (hk : 0 < k) (hTab : Tabulated T.lam P0 k) (mu : ℝ) (bb : Bool) {N0 : NDMat}
    (hN0 : generate_R2Bexact T P0 k mu bb = some N0) :
    ∃ N : β → NDMat, (∀ᶠ t in F, generate_R2Bexact T (P t) k mu bb = some (N t)) ∧
      ∀ i < side P0, ∀ j < side P0, Tendsto (fun t => (N t).get i j) F (𝓝 (N0.get i j)) := by
  obtain ⟨B0, e1, e2, e3, -, e5⟩ := near_entry h0 hk hTab bb
  have ev : ∀ᶠ t in F, Sensible (P t) ∧ Tabulated T.lam (P t) k :=
    (sensible_eventually hA h0).and (tabulated_eventually hA h0 hr hTab)
  have hB : ∀ t, ∃ B : NDMat, Sensible (P t) ∧ Tabulated T.lam (P t) k →
      generate_R2Bexact_loop T (NDMat.zeros (side (P t)) (side (P t))) (P t).Ns (P t).Nd (P t).beadSize bb
          (close_particles (beads (P t)) (P t).beadPos (P t).beadSize k) = some B ∧ B.rows = side (P t) ∧
        B.cols = side (P t) ∧ ∀ x c1 y c2, HasRow (P t).Ns (P t).Nd x c1 → HasRow (P t).Ns (P t).Nd y c2 →
        B.get (row (P t).Ns x c1) (row (P t).Ns y c2)
        = systemNear (P t).Ns (beads (P t)) bb (radius (P t)) (tableScal T) (openLink k (centre (P t)) (radius (P t)))
            x c1 y c2 := by
    intro t
    by_cases h : Sensible (P t) ∧ Tabulated T.lam (P t) k
    · obtain ⟨B, f1, f2, f3, -, f5⟩ := near_entry h.1 hk h.2 bb
      exact ⟨B, fun _ => ⟨f1, f2, f3, f5⟩⟩
    · exact ⟨B0, fun h' => absurd h' h⟩
  choose B hB using hB
  have key : ∀ i < side P0, ∀ j < side P0, Tendsto (fun t => (B t).get i j) F (𝓝 (B0.get i j)) := by
    intro i hi j hj
    obtain ⟨u, c1, hu, rfl⟩ := (C48_rows P0).1 i hi
    obtain ⟨v, c2, hv, rfl⟩ := (C48_rows P0).1 j hj
    rw [e5 u c1 v c2 hu hv]
    refine (systemNear_tendsto hA hT h0 hr bb (owns_lt (owns_kind hu)) (owns_lt (owns_kind hv)) c1 c2).congr' ?_
    filter_upwards [ev] with t ht
    rw [← (hB t ht).2.2.2 u c1 v c2 (by rw [hA.Ns, hA.Nd]; exact hu) (by rw [hA.Ns, hA.Nd]; exact hv), hA.Ns]
  let n := 11 * P0.Ns + 6 * P0.Nd
  let L := cooMatrix n (resistanceLEntries P0.Ns P0.Nd)
  let post : NDMat → NDMat := fun M => if P0.Nd > 0 then NDMat.smul mu ((L.dot M).dot L.transpose) else NDMat.smul mu M
  have make : ∀ (P' : PosData) (M : NDMat), P'.Ns = P0.Ns → P'.Nd = P0.Nd →
      generate_R2Bexact_loop T (NDMat.zeros (side P') (side P')) P'.Ns P'.Nd P'.beadSize bb
          (close_particles (beads P') P'.beadPos P'.beadSize k) = some M →
      generate_R2Bexact T P' k mu bb = some (post M) := by
    intro P' M hNs hNd h
    unfold generate_R2Bexact R2BexactOfPairs
    dsimp only
    have h' : generate_R2Bexact_loop T (NDMat.zeros (11 * P'.Ns + 6 * P'.Nd) (11 * P'.Ns + 6 * P'.Nd)) P'.Ns P'.Nd P'.beadSize bb
          (close_particles (P'.Ns + 2 * P'.Nd) P'.beadPos P'.beadSize k) = some M := h
    rw [h', Option.bind_eq_bind, Option.bind_some, hNs, hNd]
    dsimp only [post]
    split_ifs <;> rfl
  obtain rfl : N0 = post B0 := Option.some.inj (hN0.symm.trans (make P0 B0 rfl rfl e1))
  refine ⟨fun t => post (B t), ?_, fun i hi j hj => ?_⟩
  · filter_upwards [ev] with t ht
    exact make (P t) (B t) (hA.Ns t) (hA.Nd t) (hB t ht).1
  · dsimp only [post]
    by_cases hN : P0.Nd > 0
    · simp only [if_pos hN, NDMat.smul, NDMat.dot, NDMat.transpose]
      refine Tendsto.const_mul _ ?_
      have e3' : B0.cols = side P0 := e3
      have : Tendsto (fun t => ∑ x ∈ Finset.range (side P0), (∑ x_1 ∈ Finset.range L.cols, L.get i x_1 * (B t).get x_1 x)
          * L.get j x) F (𝓝 (∑ x ∈ Finset.range B0.cols, (∑ x_1 ∈ Finset.range L.cols, L.get i x_1 * B0.get x_1 x)
          * L.get j x)) := by
        rw [e3']
        exact tendsto_finsetSum _ fun k hk => Tendsto.mul_const _ (tendsto_finsetSum _ fun l hl => Tendsto.const_mul _
          (key l (Finset.mem_range.mp hl) k (Finset.mem_range.mp hk)))
      refine this.congr' ?_
      filter_upwards [ev] with t ht
      rw [(hB t ht).2.2.1, same_side hA]
    · simp only [if_neg hN, NDMat.smul]
      exact (key i hi j hj).const_mul _

end

end SD.Nearby
