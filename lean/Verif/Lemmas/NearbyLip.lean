import Verif.Lemmas.LocalLip
import Verif.Lemmas.Nearby

/-!
# The matrices are locally Lipschitz functions of the places of the particles
-/

set_option autoImplicit false

namespace SD.Lip

open Spec Filter Topology Cov Nearby

variable {α : Type} [PseudoMetricSpace α] {t0 : α}

/-! ## Interpolation -/

theorem ll_of_sides {g : ℝ → ℝ} {x0 : ℝ} (hr : ∃ e > 0, ∃ b, ∀ x, x0 ≤ x → x ≤ x0 + e → g x = g x0 + b * (x - x0))
    (hl : ∃ e > 0, ∃ b, ∀ x, x0 - e ≤ x → x ≤ x0 → g x = g x0 + b * (x - x0)) : LL g x0 := by
  obtain ⟨e1, p1, b1, h1⟩ := hr
  obtain ⟨e2, p2, b2, h2⟩ := hl
  have e : (fun x => g x0 + (b1 * max (x - x0) 0 - b2 * max (x0 - x) 0)) =ᶠ[𝓝 x0] g := by
    filter_upwards [Ioo_mem_nhds (show x0 - e2 < x0 by linarith) (show x0 < x0 + e1 by linarith)] with x hx
    rcases le_total x0 x with h | h
    · rw [max_eq_left (by linarith), max_eq_right (by linarith), h1 x h hx.2.le]; ring
    · rw [max_eq_right (by linarith), max_eq_left (by linarith), h2 x hx.1.le h]; ring
  refine LL.congr ?_ e
  have a1 : LL (fun x : ℝ => x - x0) x0 := (LL.id x0).sub_const x0
  have a2 : LL (fun x : ℝ => x0 - x) x0 := (LL.const x0 x0).sub (LL.id x0)
  exact (LL.const (g x0) x0).add (((a1.max (LL.const 0 x0)).const_mul b1).sub ((a2.max (LL.const 0 x0)).const_mul b2))

/-- A piecewise linear function is Lipschitz. -/
theorem interp_ll {xs : List ℝ} (h : Ascending xs) (f : ℕ → ℝ) (x0 : ℝ) : LL (fun x => npInterp x xs f) x0 := by
  obtain ⟨hne, hx⟩ := h
  obtain ⟨-, h2, h3, h4⟩ := C22_interp hx hne f
  have hlen : 0 < xs.length := List.length_pos_iff.mpr hne
  have step : ∀ k, k + 1 < xs.length → xs.getD k 0 < xs.getD (k + 1) 0 := by
    intro k hk
    rw [List.getD_eq_getElem _ _ (by omega), List.getD_eq_getElem _ _ hk]
    exact List.pairwise_iff_getElem.mp hx k (k + 1) (by omega) hk (by omega)
  have seg : ∀ k, k + 1 < xs.length → ∃ b, ∀ x y, xs.getD k 0 ≤ x → x ≤ xs.getD (k + 1) 0 → xs.getD k 0 ≤ y →
      y ≤ xs.getD (k + 1) 0 → npInterp y xs f = npInterp x xs f + b * (y - x) := by
    intro k hk
    refine ⟨(f (k + 1) - f k) / (xs.getD (k + 1) 0 - xs.getD k 0), fun x y a1 a2 a3 a4 => ?_⟩
    rw [(h2 k x hk a1 a2).1, (h2 k y hk a3 a4).1]
    ring
  refine ll_of_sides ?_ ?_
  · by_cases hA : x0 < xs.getD 0 0
    · refine ⟨xs.getD 0 0 - x0, by linarith, 0, fun x _ hx2 => ?_⟩
      rw [h3 x (by linarith), h3 x0 hA.le]; ring
    · push Not at hA
      have : ∀ n, n < xs.length → xs.getD n 0 ≤ x0 ∨ ∃ k, k + 1 < xs.length ∧ xs.getD k 0 ≤ x0 ∧ x0 < xs.getD (k + 1) 0 := by
        intro n
        induction n with
        | zero => exact fun _ => .inl hA
        | succ n ih =>
          intro hn
          rcases ih (by omega) with h | h
          · rcases le_or_gt (xs.getD (n + 1) 0) x0 with h' | h'
            · exact .inl h'
            · exact .inr ⟨n, hn, h, h'⟩
          · exact .inr h
      rcases this (xs.length - 1) (by omega) with h | ⟨k, hk, a1, a2⟩
      · refine ⟨1, one_pos, 0, fun x hx1 _ => ?_⟩
        rw [h4 x (le_trans h hx1), h4 x0 h]; ring
      · obtain ⟨b, hb⟩ := seg k hk
        exact ⟨xs.getD (k + 1) 0 - x0, by linarith, b, fun x b1 b2 => hb x0 x a1 a2.le (by linarith) (by linarith)⟩
  · by_cases hA : x0 ≤ xs.getD 0 0
    · refine ⟨1, one_pos, 0, fun x _ hx2 => ?_⟩
      rw [h3 x (by linarith), h3 x0 hA]; ring
    · push Not at hA
      have : ∀ n, n < xs.length → xs.getD n 0 < x0 ∨ ∃ k, k + 1 < xs.length ∧ xs.getD k 0 < x0 ∧ x0 ≤ xs.getD (k + 1) 0 := by
        intro n
        induction n with
        | zero => exact fun _ => .inl hA
        | succ n ih =>
          intro hn
          rcases ih (by omega) with h | h
          · rcases lt_or_ge (xs.getD (n + 1) 0) x0 with h' | h'
            · exact .inl h'
            · exact .inr ⟨n, hn, h, h'⟩
          · exact .inr h
      rcases this (xs.length - 1) (by omega) with h | ⟨k, hk, a1, a2⟩
      · refine ⟨x0 - xs.getD (xs.length - 1) 0, by linarith, 0, fun x hx1 _ => ?_⟩
        rw [h4 x (by linarith), h4 x0 h.le]; ring
      · obtain ⟨b, hb⟩ := seg k hk
        exact ⟨x0 - xs.getD k 0, by linarith, b, fun x b1 b2 => hb x0 x a1.le a2 (by linarith) (by linarith)⟩

/-! ## Far field -/

theorem len_ll {r0 : Vec3} (h : 0 < len r0) : LL len r0 := by
  refine LL.of_contDiff ?_
  have h0 : (∑ i, r0 i ^ 2) ≠ 0 := fun e => by
    unfold len at h
    rw [e, Real.sqrt_zero] at h
    exact lt_irrefl _ h
  unfold len
  exact ContDiffAt.sqrt (by fun_prop) h0

theorem sep_ll {r0 : Vec3} (h : 0 < len r0) (a b : ℝ) : LL (fun r => sep r a b) r0 := by
  set m := 2.001 * ((a + b) / 2) with hm
  have e : (fun r i => max 1 (m / len r) * r i) =ᶠ[𝓝 r0] fun r => sep r a b := by
    have : ∀ᶠ r in 𝓝 r0, 0 < len r := (len_continuous.tendsto r0).eventually (lt_mem_nhds h)
    filter_upwards [this] with r hr
    unfold sep
    split_ifs with hc
    · rw [← hm] at *
      funext i
      rw [max_eq_right (by rw [le_div_iff₀ hr]; linarith)]
    · funext i
      rw [← hm] at hc
      rw [max_eq_left (by rw [div_le_one hr]; linarith), one_mul]
  refine LL.congr (LL.pi fun i => ?_) e
  exact ((LL.const 1 _).max ((LL.const m _).div (len_ll h) h.ne')).mul ((LL.id r0).eval i)

theorem Sm.ll {f : Vec3 → ℝ} (h : Sm f) {r : Vec3} (hr : r ≠ 0) : LL f r :=
  LL.of_contDiff ((h r hr).of_le (by exact_mod_cast le_top))

theorem five_ll {f : α → Fin 3 → Fin 3 → ℝ} (h : ∀ i j, LL (fun t => f t i j) t0) (p : Fin 5) :
    LL (fun t => five (f t) p) t0 := by
  have : LL (fun g : Fin 3 → Fin 3 → ℝ => five g p) (f t0) := by
    refine LL.of_contDiff ?_
    unfold five
    fin_cases p <;> simp <;> fun_prop
  exact this.comp (LL.pi fun i => LL.pi fun j => h i j)

theorem pairMob_ll (a b : ℝ) (c1 c2 : Comp) {r : Vec3} (hr : r ≠ 0) : LL (pairMob a b c1 c2) r := by
  cases c1 with
  | f i => exact Sm.ll (respTo_sm a b _ c2) hr
  | t i => exact Sm.ll (respTo_sm a b _ c2) hr
  | s p => exact five_ll (fun i j => Sm.ll (respTo_sm a b _ c2) hr) p

/-- The same particles in places that are locally Lipschitz functions of a parameter. -/
structure Places (P : α → PosData) (t0 : α) : Prop where
  Ns : ∀ t, (P t).Ns = (P t0).Ns
  Nd : ∀ t, (P t).Nd = (P t0).Nd
  size : ∀ t, ∀ x < beads (P t0), radius (P t) x = radius (P t0) x
  place : ∀ x < beads (P t0), ∀ k, LL (fun t => centre (P t) x k) t0

section
variable {P : α → PosData} (hA : Places P t0)
include hA

theorem Places.approaches : Approaches (𝓝 t0) P (P t0) :=
  ⟨hA.Ns, hA.Nd, hA.size, fun x hx k => (hA.place x hx k).continuousAt⟩

theorem gap_ll {x y : ℕ} (hx : x < beads (P t0)) (hy : y < beads (P t0)) :
    LL (fun t (i : Fin 3) => centre (P t) x i - centre (P t) y i) t0 :=
  LL.pi fun i => (hA.place x hx i).sub (hA.place y hy i)

theorem system_ll (h0 : Sensible (P t0)) (mu : ℝ) (bb : Bool) {x y : ℕ} (hx : x < beads (P t0)) (hy : y < beads (P t0))
    (c1 c2 : Comp) : LL (fun t => systemMob (P t).Ns bb (centre (P t)) (radius (P t)) mu x c1 y c2) t0 := by
  unfold systemMob
  simp only [hA.Ns, hA.size _ x hx, hA.size _ y hy]
  by_cases hxy : x = y
  · simp only [if_pos hxy]; exact LL.const _ _
  simp only [if_neg hxy]
  split_ifs with hb
  · exact LL.const _ _
  refine LL.const_mul _ ?_
  have hl := h0.apart x hx y hy hxy
  have hn := sep_ne (h0.radius_pos x hx) (h0.radius_pos y hy) hl
  have h1 : LL (fun t => sep (fun i => centre (P t) x i - centre (P t) y i) (radius (P t0) x) (radius (P t0) y)) t0 :=
    (sep_ll (lt_trans (by norm_num) hl) _ _).comp (gap_ll hA hx hy)
  exact LL.comp (f := fun t => sep (fun i => centre (P t) x i - centre (P t) y i) (radius (P t0) x) (radius (P t0) y))
    (pairMob_ll _ _ c1 c2 hn.1) h1

theorem farB_ll (h0 : Sensible (P t0)) (mu : ℝ) (bb : Bool) {i j : ℕ} (hi : i < side (P t0)) (hj : j < side (P t0)) :
    LL (fun t => (farB (P t) mu bb).get i j) t0 := by
  obtain ⟨u, c1, hu, rfl⟩ := (C48_rows (P t0)).1 i hi
  obtain ⟨v, c2, hv, rfl⟩ := (C48_rows (P t0)).1 j hj
  refine (system_ll hA h0 mu bb (owns_lt (owns_kind hu)) (owns_lt (owns_kind hv)) c1 c2).congr ?_
  filter_upwards [sensible_eventually hA.approaches h0] with t ht
  have e := C48_entry ht mu bb (x := u) (y := v) (c1 := c1) (c2 := c2) (by rw [hA.Ns, hA.Nd]; exact hu)
    (by rw [hA.Ns, hA.Nd]; exact hv)
  unfold farB
  rw [← e, hA.Ns]

theorem far_ll (h0 : Sensible (P t0)) (mu : ℝ) (bb : Bool) {i j : ℕ} (hi : i < side (P t0)) (hj : j < side (P t0)) :
    LL (fun t => (generate_Minfinity (P t) mu bb).get i j) t0 := by
  unfold generate_Minfinity
  dsimp only
  simp only [hA.Ns, hA.Nd]
  have key : ∀ {i j : ℕ}, i < side (P t0) → j < side (P t0) →
      LL (fun t => (generate_Minfinity_loop (NDMat.zeros (11 * (P t0).Ns + 6 * (P t0).Nd) (11 * (P t0).Ns + 6 * (P t0).Nd)) (P t)
        (1 / (8 * Real.pi * mu)) mu bb).get i j) t0 := by
    intro i j hi hj
    refine (farB_ll hA h0 mu bb hi hj).congr (Eventually.of_forall fun t => ?_)
    unfold farB
    dsimp only
    rw [same_side hA.approaches]; rfl
  by_cases hN : (P t0).Nd > 0
  · simp only [if_pos hN]
    have c1 : ∀ P' : PosData, (generate_Minfinity_loop (NDMat.zeros (11 * (P t0).Ns + 6 * (P t0).Nd)
        (11 * (P t0).Ns + 6 * (P t0).Nd)) P' (1 / (8 * Real.pi * mu)) mu bb).cols = side (P t0) :=
      fun P' => (loop_dims P' _ mu bb _).2
    simp only [NDMat.dot, NDMat.transpose, c1]
    refine LL.sum _ fun k hk => LL.mul_const (LL.sum _ fun l hl => LL.const_mul _ ?_) _
    exact key (Finset.mem_range.mp hl) (Finset.mem_range.mp hk)
  · simp only [if_neg hN]
    exact key hi hj

/-! ## Near field -/

theorem link_ll {k : ℝ} (h0 : Sensible (P t0)) (hk : ¬ AtRange k (P t0)) {x y : ℕ} (hx : x < beads (P t0))
    (hy : y < beads (P t0)) (hxy : x ≠ y) :
    (∀ᶠ t in 𝓝 t0, openLink k (centre (P t)) (radius (P t)) x y = none) ∨
    ∃ (d : α → Vec3) (s : α → ℝ),
      (∀ᶠ t in 𝓝 t0, openLink k (centre (P t)) (radius (P t)) x y = some (d t, s t)) ∧ (∀ i, LL (fun t => d t i) t0) ∧
      LL s t0 := by
  set m := (radius (P t0) x + radius (P t0) y) / 2 with hm
  have m0 : 0 < m := by have := h0.radius_pos x hx; have := h0.radius_pos y hy; rw [hm]; linarith
  have gt := gap_ll hA hy hx
  have hl0 : 0 < len (fun i => centre (P t0) y i - centre (P t0) x i) :=
    lt_trans (by norm_num) (h0.apart y hy x hx (Ne.symm hxy))
  have lt : LL (fun t => len fun i => centre (P t) y i - centre (P t) x i) t0 := (len_ll hl0).comp gt
  have st : LL (fun t => (len fun i => centre (P t) y i - centre (P t) x i) / m) t0 := lt.div (LL.const m _) m0.ne'
  have e : ∀ t, openLink k (centre (P t)) (radius (P t)) x y =
      if len (fun i => centre (P t) y i - centre (P t) x i) / m < 2 * k then
        some (fun i => (centre (P t) y i - centre (P t) x i) / len (fun i => centre (P t) y i - centre (P t) x i),
          len (fun i => centre (P t) y i - centre (P t) x i) / m) else none := by
    intro t
    unfold openLink
    rw [hA.size t x hx, hA.size t y hy]
  have hne : len (fun i => centre (P t0) y i - centre (P t0) x i) / m ≠ 2 * k := by
    intro h
    refine hk ⟨y, hy, x, hx, Ne.symm hxy, ?_⟩
    rw [div_eq_iff m0.ne'] at h
    rw [h, hm]; ring
  rcases lt_or_gt_of_ne hne with h | h
  · right
    refine ⟨fun t i => (centre (P t) y i - centre (P t) x i) / len (fun i => centre (P t) y i - centre (P t) x i),
      _, ?_, fun i => (gt.eval i).div lt hl0.ne', st⟩
    filter_upwards [st.continuousAt.eventually (gt_mem_nhds h)] with t ht
    rw [e t, if_pos ht]
  · left
    filter_upwards [st.continuousAt.eventually (lt_mem_nhds h)] with t ht
    rw [e t, if_neg (by linarith)]

end

/-- The scalars read off tables. -/
structure ScalLL (z : α → Scalars) (t0 : α) : Prop where
  XA : LL (fun t => (z t).XA) t0
  YA : LL (fun t => (z t).YA) t0
  YB : LL (fun t => (z t).YB) t0
  XC : LL (fun t => (z t).XC) t0
  YC : LL (fun t => (z t).YC) t0
  XG : LL (fun t => (z t).XG) t0
  YG : LL (fun t => (z t).YG) t0
  YH : LL (fun t => (z t).YH) t0
  XM : LL (fun t => (z t).XM) t0
  YM : LL (fun t => (z t).YM) t0
  ZM : LL (fun t => (z t).ZM) t0

theorem scal_ll {T : ScalarTable} (hT : Ascending T.sDash) (g : ℕ) (lam : ℝ) {s : α → ℝ} (h : LL s t0) :
    ScalLL (fun t => tableScal T g lam (s t)) t0 := by
  have : ∀ k l, LL (fun t => XYZ T k g (s t) l) t0 := fun k l =>
    (interp_ll hT (fun n => T.raw k g n l) (s t0)).comp h
  constructor <;> exact this _ _

section
variable {z : α → Scalars} {d : α → Vec3}

theorem dotp_ll {x y : α → Vec3} (hx : ∀ i, LL (fun t => x t i) t0) (hy : ∀ i, LL (fun t => y t i) t0) :
    LL (fun t => dotp (x t) (y t)) t0 :=
  (((hx 0).mul (hy 0)).add ((hx 1).mul (hy 1))).add ((hx 2).mul (hy 2))

theorem cross_ll {x y : α → Vec3} (hx : ∀ i, LL (fun t => x t i) t0) (hy : ∀ i, LL (fun t => y t i) t0) (i : Fin 3) :
    LL (fun t => cross (x t) (y t) i) t0 := by
  unfold cross
  fin_cases i
  · exact ((hx 1).mul (hy 2)).sub ((hx 2).mul (hy 1))
  · exact ((hx 2).mul (hy 0)).sub ((hx 0).mul (hy 2))
  · exact ((hx 0).mul (hy 1)).sub ((hx 1).mul (hy 0))

theorem direct_ll (hz : ScalLL z t0) (hd : ∀ i, LL (fun t => d t i) t0) (a : ℝ) (c1 c2 : Comp) :
    LL (fun t => nearDirect (z t) a (d t) c1 c2) t0 := by
  have cst : ∀ U : Vec3, ∀ i, LL (fun _ : α => U i) t0 := fun U i => LL.const _ _
  have force : ∀ (U : Vec3) i, LL (fun t => nearForce (z t) a (d t) U i) t0 := by
    intro U i
    have dU := dotp_ll hd (cst U)
    exact LL.const_mul _ ((hz.XA.mul (dU.mul (hd i))).add (hz.YA.mul ((LL.const _ _).sub (dU.mul (hd i)))))
  have torque : ∀ (U O : Vec3) i, LL (fun t => nearTorque (z t) a (d t) U O i) t0 := by
    intro U O i
    have dO := dotp_ll hd (cst O)
    exact (LL.const_mul _ (hz.YB.mul (cross_ll (cst U) hd i))).add
      (LL.const_mul _ ((hz.XC.mul (dO.mul (hd i))).add (hz.YC.mul ((LL.const _ _).sub (dO.mul (hd i))))))
  have stress : ∀ (U O : Vec3) (E : Fin 3 → Fin 3 → ℝ) i j, LL (fun t => nearStress (z t) a (d t) U O E i j) t0 := by
    intro U O E i j
    have dU := dotp_ll hd (cst U)
    have dd := fun i j => (hd i).mul (hd j)
    have Ed : ∀ i, LL (fun t => app E (d t) i) t0 := fun i => dotp_ll (cst (E i)) hd
    have dEd := dotp_ll hd Ed
    have Od := cross_ll (cst O) hd
    refine ((LL.const_mul _ ((hz.XG.mul ?_).add (hz.YG.mul ?_))).add (LL.const_mul _ (hz.YH.mul ?_))).add
      (LL.const_mul _ (((hz.XM.mul ?_).add (hz.YM.mul ?_)).add (hz.ZM.mul ?_)))
    · exact ((dd i j).sub_const _).mul dU
    · exact (((hd i).mul_const _).add ((hd j).const_mul _)).sub (LL.const_mul _ ((dd i j).mul dU))
    · exact ((Od i).mul (hd j)).add ((hd i).mul (Od j))
    · exact LL.const_mul _ (((dd i j).sub_const _).mul dEd)
    · exact (((hd i).mul (Ed j)).add ((Ed i).mul (hd j))).sub (LL.const_mul _ ((dd i j).mul dEd))
    · exact (((LL.const _ _).sub ((hd i).mul (Ed j))).sub ((Ed i).mul (hd j))).add
        (LL.const_mul _ (((dd i j).add_const _).mul dEd))
  cases c1 <;> cases c2 <;> simp only [nearDirect]
  · exact force _ _
  · exact LL.const _ _
  · exact LL.const _ _
  · exact torque _ _ _
  · exact torque _ _ _
  · exact LL.const _ _
  · exact five_ll (fun i j => stress _ _ _ i j) _
  · exact five_ll (fun i j => stress _ _ _ i j) _
  · exact five_ll (fun i j => stress _ _ _ i j) _

theorem self_ll (hz : ScalLL z t0) (hd : ∀ i, LL (fun t => d t i) t0) (a : ℝ) (c1 c2 : Comp) :
    LL (fun t => nearSelf (z t) a (d t) c1 c2) t0 := by
  unfold nearSelf
  split_ifs
  · exact direct_ll hz hd a c1 c2
  · exact direct_ll hz hd a c2 c1

theorem nearPair_ll {z' : α → Scalars} (hz : ScalLL z t0) (hz' : ScalLL z' t0) (hd : ∀ i, LL (fun t => d t i) t0)
    (first : Prop) [Decidable first] (a b : ℝ) (c1 c2 : Comp) :
    LL (fun t => nearPair (z t) (z' t) first a b (d t) c1 c2) t0 := by
  unfold nearPair
  split_ifs
  · exact direct_ll hz hd a c1 c2
  · exact direct_ll hz' (fun i => (hd i).neg) b c2 c1

end

section
variable {P : α → PosData} (hA : Places P t0) {T : ScalarTable} {k : ℝ} (hT : Ascending T.sDash)
  (h0 : Sensible (P t0)) (hr : ¬ AtRange k (P t0))
include hA hT h0 hr

theorem systemNear_ll (bb : Bool) {x y : ℕ} (hx : x < beads (P t0)) (hy : y < beads (P t0)) (c1 c2 : Comp) :
    LL (fun t => systemNear (P t).Ns (beads (P t)) bb (radius (P t)) (tableScal T)
        (openLink k (centre (P t)) (radius (P t))) x c1 y c2) t0 := by
  unfold systemNear
  simp only [hA.Ns, same_count hA.approaches, hA.size _ x hx, hA.size _ y hy]
  by_cases hxy : x = y
  · simp only [if_pos hxy]
    refine LL.sum _ fun w hw => ?_
    rw [Finset.mem_range] at hw
    by_cases e : w = x
    · simp only [if_pos e]; exact LL.const _ _
    simp only [if_neg e, hA.size _ w hw]
    rcases link_ll hA h0 hr hx hw (Ne.symm e) with h1 | ⟨d, s, h1, h3, h4⟩
    · refine (LL.const (0 : ℝ) t0).congr ?_
      filter_upwards [h1] with t ht
      rw [ht]
    · refine (self_ll (scal_ll hT 0 (radius (P t0) w / radius (P t0) x) h4) h3 (radius (P t0) x) c1 c2).congr ?_
      filter_upwards [h1] with t ht
      rw [ht]
  · simp only [if_neg hxy]
    split_ifs with hb
    · exact LL.const _ _
    rcases link_ll hA h0 hr hx hy hxy with h1 | ⟨d, s, h1, h3, h4⟩
    · refine (LL.const (0 : ℝ) t0).congr ?_
      filter_upwards [h1] with t ht
      rw [ht]
    · refine (nearPair_ll (scal_ll hT 1 (radius (P t0) y / radius (P t0) x) h4)
        (scal_ll hT 1 (radius (P t0) x / radius (P t0) y) h4) h3 (x < y) (radius (P t0) x) (radius (P t0) y) c1 c2).congr ?_
      filter_upwards [h1] with t ht
      rw [ht]

/-- The near-field matrix. -/
theorem near_ll (hk : 0 < k) (hTab : Tabulated T.lam (P t0) k) (mu : ℝ) (bb : Bool) {N : α → NDMat}
    (hN : ∀ᶠ t in 𝓝 t0, generate_R2Bexact T (P t) k mu bb = some (N t)) {i j : ℕ} (hi : i < side (P t0))
    (hj : j < side (P t0)) : LL (fun t => (N t).get i j) t0 := by
  obtain ⟨B0, e1, e2, e3, -, e5⟩ := near_entry h0 hk hTab bb
  have ev : ∀ᶠ t in 𝓝 t0, Sensible (P t) ∧ Tabulated T.lam (P t) k :=
    (sensible_eventually hA.approaches h0).and (tabulated_eventually hA.approaches h0 hr hTab)
  have hB : ∀ t, ∃ B : NDMat, Sensible (P t) ∧ Tabulated T.lam (P t) k →
      generate_R2Bexact_loop T (NDMat.zeros (side (P t)) (side (P t))) (P t).Ns (P t).Nd (P t).beadSize bb
          (close_particles (beads (P t)) (P t).beadPos (P t).beadSize k) = some B ∧ B.rows = side (P t) ∧
        B.cols = side (P t) ∧ ∀ x c1 y c2, HasRow (P t).Ns (P t).Nd x c1 → HasRow (P t).Ns (P t).Nd y c2 →
        B.get (row (P t).Ns x c1) (row (P t).Ns y c2)
        = systemNear (P t).Ns (beads (P t)) bb (radius (P t)) (tableScal T) (openLink k (centre (P t)) (radius (P t)))
            x c1 y c2 := by
    intro t
    by_cases h : Sensible (P t) ∧ Tabulated T.lam (P t) k
    · obtain ⟨B, f1, f2, f3, -, f5⟩ := near_entry h.1 hk h.2 bb
      exact ⟨B, fun _ => ⟨f1, f2, f3, f5⟩⟩
    · exact ⟨B0, fun h' => absurd h' h⟩
  choose B hB using hB
  have key : ∀ i < side (P t0), ∀ j < side (P t0), LL (fun t => (B t).get i j) t0 := by
    intro i hi j hj
    obtain ⟨u, c1, hu, rfl⟩ := (C48_rows (P t0)).1 i hi
    obtain ⟨v, c2, hv, rfl⟩ := (C48_rows (P t0)).1 j hj
    refine (systemNear_ll hA hT h0 hr bb (owns_lt (owns_kind hu)) (owns_lt (owns_kind hv)) c1 c2).congr ?_
    filter_upwards [ev] with t ht
    rw [← (hB t ht).2.2.2 u c1 v c2 (by rw [hA.Ns, hA.Nd]; exact hu) (by rw [hA.Ns, hA.Nd]; exact hv), hA.Ns]
  let n := 11 * (P t0).Ns + 6 * (P t0).Nd
  let L := cooMatrix n (resistanceLEntries (P t0).Ns (P t0).Nd)
  let post : NDMat → NDMat := fun M => if (P t0).Nd > 0 then NDMat.smul mu ((L.dot M).dot L.transpose) else NDMat.smul mu M
  have make : ∀ (P' : PosData) (M : NDMat), P'.Ns = (P t0).Ns → P'.Nd = (P t0).Nd →
      generate_R2Bexact_loop T (NDMat.zeros (side P') (side P')) P'.Ns P'.Nd P'.beadSize bb
          (close_particles (beads P') P'.beadPos P'.beadSize k) = some M →
      generate_R2Bexact T P' k mu bb = some (post M) := by
    intro P' M hNs hNd h
    unfold generate_R2Bexact R2BexactOfPairs
    dsimp only
    have h' : generate_R2Bexact_loop T (NDMat.zeros (11 * P'.Ns + 6 * P'.Nd) (11 * P'.Ns + 6 * P'.Nd)) P'.Ns P'.Nd P'.beadSize bb
          (close_particles (P'.Ns + 2 * P'.Nd) P'.beadPos P'.beadSize k) = some M := h
    rw [h', Option.bind_eq_bind, Option.bind_some, hNs, hNd]
    dsimp only [post]
    split_ifs <;> rfl
  have same : ∀ᶠ t in 𝓝 t0, post (B t) = N t := by
    filter_upwards [ev, hN] with t ht h
    exact Option.some.inj ((make (P t) (B t) (hA.Ns t) (hA.Nd t) (hB t ht).1).symm.trans h)
  have main : LL (fun t => (post (B t)).get i j) t0 := by
    dsimp only [post]
    by_cases hN : (P t0).Nd > 0
    · simp only [if_pos hN, NDMat.smul, NDMat.dot, NDMat.transpose]
      refine LL.const_mul _ ?_
      have : LL (fun t => ∑ x ∈ Finset.range (side (P t0)), (∑ x_1 ∈ Finset.range L.cols, L.get i x_1 * (B t).get x_1 x)
          * L.get j x) t0 :=
        LL.sum _ fun k hk => LL.mul_const (LL.sum _ fun l hl => LL.const_mul _
          (key l (Finset.mem_range.mp hl) k (Finset.mem_range.mp hk))) _
      refine this.congr ?_
      filter_upwards [ev] with t ht
      rw [(hB t ht).2.2.1, same_side hA.approaches t]
    · simp only [if_neg hN, NDMat.smul]
      exact (key i hi j hj).const_mul _
  exact main.congr (same.mono fun t ht => by dsimp only; rw [ht])

end

/-- The inverse of a matrix. -/
theorem inv_ll {M : α → NDMat} {n : ℕ} (hd : ∀ t, (M t).rows = n ∧ (M t).cols = n)
    (h : ∀ i < n, ∀ j < n, LL (fun t => (M t).get i j) t0) {C : α → NDMat} (hC : ∀ᶠ t in 𝓝 t0, (M t).inv = some (C t))
    {i j : ℕ} (hi : i < n) (hj : j < n) : LL (fun t => (C t).get i j) t0 := by
  let A : α → Matrix (Fin n) (Fin n) ℝ := fun t => Matrix.of fun a b => (M t).get a b
  have hdet0 : (A t0).det ≠ 0 := (Perturb.inv_det (hd t0).1 (hd t0).2).mp ⟨_, hC.self_of_nhds⟩
  have h1 := LL.matrix_inv (A := A) (fun a b => h a a.2 b b.2) hdet0 ⟨i, hi⟩ ⟨j, hj⟩
  refine h1.congr ?_
  filter_upwards [hC] with t ht
  exact (Perturb.inv_entry (hd t).1 ht ⟨i, hi⟩ ⟨j, hj⟩).symm

end SD.Lip
