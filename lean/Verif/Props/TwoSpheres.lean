import Verif.Lemmas.PairFar
import Verif.Props.Covariance
import Verif.Props.LubricationTable

/-!
# Two spheres, completely (C44), and numbering with the shipped tables (C18)

The simulation adds a far field to a table from which a script has subtracted that far field. For two spheres at a
tabulated distance every entry of the grand resistance matrix is that of the original table, wherever the spheres
are and however large they are. The subtraction keeps the reciprocal theorem, which the renumbering of particles
needs.
-/

set_option autoImplicit false

namespace SD

open Spec Cov

/-- The eleven scalars in one cell of a table. -/
def Spec.cellScalars (T : ScalarTable) (g n l : ℕ) : Scalars where
  XA := T.raw 0 g n l
  YA := T.raw 1 g n l
  YB := T.raw 2 g n l
  XC := T.raw 3 g n l
  YC := T.raw 4 g n l
  XG := T.raw 5 g n l
  YG := T.raw 6 g n l
  YH := T.raw 7 g n l
  XM := T.raw 8 g n l
  YM := T.raw 9 g n l
  ZM := T.raw 10 g n l

/-- Sum of scalars. -/
def plus (u w : Scalars) : Scalars where
  XA := u.XA + w.XA
  YA := u.YA + w.YA
  YB := u.YB + w.YB
  XC := u.XC + w.XC
  YC := u.YC + w.YC
  XG := u.XG + w.XG
  YG := u.YG + w.YG
  YH := u.YH + w.YH
  XM := u.XM + w.XM
  YM := u.YM + w.YM
  ZM := u.ZM + w.ZM

theorem nearDirect_plus (u w : Scalars) (a : ℝ) (d : Fin 3 → ℝ) (c1 c2 : Comp) :
    nearDirect (plus u w) a d c1 c2 = nearDirect u a d c1 c2 + nearDirect w a d c1 c2 := by
  have e : ∀ U O E, nearStress (plus u w) a d U O E = fun i j => nearStress u a d U O E i j + nearStress w a d U O E i j := by
    intro U O E
    funext i j
    simp only [nearStress, plus]
    ring
  have f : ∀ (A B : Fin 3 → Fin 3 → ℝ) p, five (fun i j => A i j + B i j) p = five A p + five B p := by
    intro A B p
    fin_cases p <;> simp [five] <;> ring
  cases c1 <;> cases c2 <;> simp only [nearDirect, e, f, add_zero]
  · simp only [nearForce, plus]; ring
  · simp only [nearTorque, plus]; ring
  · simp only [nearTorque, plus]; ring

theorem nearSelf_plus (u w : Scalars) (a : ℝ) (d : Fin 3 → ℝ) (c1 c2 : Comp) :
    nearSelf (plus u w) a d c1 c2 = nearSelf u a d c1 c2 + nearSelf w a d c1 c2 := by
  unfold nearSelf
  split_ifs <;> exact nearDirect_plus _ _ _ _ _ _

/-- What the script does, cell by cell. -/
theorem subtract_cells {T T' : ScalarTable} (hT : subtractR2Binfinity T = some T') :
    ∃ cell : ℕ → ℕ → NDMat, T' = subtractCells T cell ∧ ∀ l < T.lam.length, ∀ n < T.sDash.length,
      (generate_Minfinity (pairPosdata 1 (T.lam.getD l 0) (T.sDash.getD n 0)) 1 true).inv = some (cell n l) := by
  unfold subtractR2Binfinity at hT
  rw [Option.bind_eq_bind, Option.bind_eq_some_iff] at hT
  obtain ⟨cells, hc, hT⟩ := hT
  refine ⟨_, (Option.some.inj hT).symm, fun l hl n hn => ?_⟩
  have h1 := mapM_getD _ 0 [] _ _ hc l hl
  exact mapM_getD _ 0 (NDMat.zeros 22 22) _ _ h1 n hn

/-- A cell of the original table is the cell of the new one plus the far field. -/
theorem cell_plus {T : ScalarTable} {cell : ℕ → ℕ → NDMat} {g n l : ℕ} (hg : g < 2) (h : ∀ i j, (cell n l).get i j = (cell n l).get j i) :
    cellScalars T g n l = plus (cellScalars (subtractCells T cell) g n l) (farScal (cell n l) g) := by
  have e := fun κ (hκ : κ < 11) => farScal_nth h hκ hg
  have e0 := e 0 (by norm_num)
  have e1 := e 1 (by norm_num)
  have e2 := e 2 (by norm_num)
  have e3 := e 3 (by norm_num)
  have e4 := e 4 (by norm_num)
  have e5 := e 5 (by norm_num)
  have e6 := e 6 (by norm_num)
  have e7 := e 7 (by norm_num)
  have e8 := e 8 (by norm_num)
  have e9 := e 9 (by norm_num)
  have e10 := e 10 (by norm_num)
  simp only [Spec.Scalars.nth] at e0 e1 e2 e3 e4 e5 e6 e7 e8 e9 e10
  simp only [cellScalars, plus, subtractCells, e0, e1, e2, e3, e4, e5, e6, e7, e8, e9, e10, sub_add_cancel]

theorem scalarsAt_node {T : ScalarTable} (hx : T.sDash.Pairwise (· < ·)) {g n l : ℕ} (hn : n < T.sDash.length) :
    scalarsAt T g (T.sDash.getD n 0) l = cellScalars T g n l := by
  have e : ∀ κ, XYZ T κ g (T.sDash.getD n 0) l = T.raw κ g n l :=
    fun κ => (C22_interp hx (List.ne_nil_of_length_pos (by omega)) _).1 n hn
  simp only [scalarsAt, cellScalars, e]

/-- Unit vector from the first sphere to the second. -/
theorem two_of {P : PosData} (hP : Sensible P) (hNs : P.Ns = 2) (hNd : P.Nd = 0) :
    Two P (radius P 0) (radius P 1)
      (fun i => (centre P 1 i - centre P 0 i) / len fun i => centre P 1 i - centre P 0 i)
      (len fun i => centre P 1 i - centre P 0 i) := by
  have hb : beads P = 2 := by unfold beads; rw [hNs, hNd]
  have hpos : 0 < len fun i => centre P 1 i - centre P 0 i :=
    lt_trans (by norm_num) (hP.apart 1 (by omega) 0 (by omega) (by norm_num))
  refine ⟨hNs, hNd, hP, rfl, rfl, ?_, hpos, fun i => by field_simp⟩
  have h2 : (len fun i => centre P 1 i - centre P 0 i) ^ 2 = ∑ i, (centre P 1 i - centre P 0 i) ^ 2 :=
    Real.sq_sqrt (Finset.sum_nonneg fun _ _ => sq_nonneg _)
  rw [Fin.sum_univ_three] at h2
  simp only [dotp]
  field_simp
  linarith

/-- **C44** (two spheres). For a table `T'` made by the script from the table `T`, and any two spheres, in any position
and of any sizes, whose size ratio and scaled distance are tabulated: every entry of the grand resistance matrix,
far field plus near field, is the one given by the scalars of the original table `T`: `l` and `l'` are the columns
of the two size ratios and `n` is the row of the distance. -/
theorem C44_two_spheres {T T' : ScalarTable} (hT : subtractR2Binfinity T = some T') (hx : T.sDash.Pairwise (· < ·))
    (hsep : Separated T.lam) (hdup : T.lam.Nodup) (one : 1 ∈ T.lam) {P : PosData} (hP : Sensible P) (hNs : P.Ns = 2) (hNd : P.Nd = 0)
    {n l l' : ℕ} (hn : n < T.sDash.length) (hl : l < T.lam.length) (hl' : l' < T.lam.length)
    (rl : T.lam.getD l 0 = radius P 1 / radius P 0) (rl' : T.lam.getD l' 0 = radius P 0 / radius P 1)
    (rs : T.sDash.getD n 0 = len (fun i => centre P 1 i - centre P 0 i) / ((radius P 0 + radius P 1) / 2))
    (h1 : radius P 0 * (1 / 10 ^ 8) < len fun i => centre P 1 i - centre P 0 i)
    (h2 : radius P 1 * (1 / 10 ^ 8) < len fun i => centre P 1 i - centre P 0 i)
    {k : ℝ} (hk : T.sDash.getD n 0 < 2 * k) {mu : ℝ} (hmu : 0 < mu) (bb : Bool) (last : NDMat)
    (scal : ℕ → ℝ → ℝ → Scalars)
    (s1 : ∀ g, scal g (radius P 1 / radius P 0) (T.sDash.getD n 0) = cellScalars T g n l)
    (s2 : ∀ g, scal g (radius P 0 / radius P 1) (T.sDash.getD n 0) = cellScalars T g n l') :
    ∃ R C, generate_grand_resistance_matrix T' P last true k false false mu bb = some (R, C) ∧
      ∀ x < 2, ∀ y < 2, ∀ c1 c2, R.get (row 2 x c1) (row 2 y c2)
        = mu * systemNear 2 2 bb (radius P) scal (openLink k (centre P) (radius P)) x c1 y c2 := by
  obtain ⟨cell, rfl, hcell⟩ := subtract_cells hT
  have two := two_of hP hNs hNd
  have hb : beads P = 2 := by unfold beads; rw [hNs, hNd]
  set a := radius P 0 with ha
  set b := radius P 1 with hbd
  set L := len fun i => centre P 1 i - centre P 0 i with hL
  set d : Fin 3 → ℝ := fun i => (centre P 1 i - centre P 0 i) / L with hd
  set s := L / ((a + b) / 2) with hs
  obtain ⟨pa, pb⟩ := two.apos
  have pL := two.pos
  have ps : 0 < s := by positivity
  have g1 : 1 / 10 ^ 8 < s * (1 + 1 * (b / a)) * 0.5 := by
    have : s * (1 + 1 * (b / a)) * 0.5 = L / a := by rw [hs]; norm_num; field_simp
    rw [this, lt_div_iff₀ pa]; linarith
  have g2 : 1 / 10 ^ 8 < s * (1 + 1 * (a / b)) * 0.5 := by
    have : s * (1 + 1 * (a / b)) * 0.5 = L / b := by rw [hs, add_comm a b]; norm_num; field_simp
    rw [this, lt_div_iff₀ pb]; linarith
  have k1 := hcell l hl n hn
  have k2 := hcell l' hl' n hn
  rw [rl, rs] at k1
  rw [rl', rs] at k2
  obtain ⟨C, hC, o0, o1, p0, p1⟩ := two_far two (pair_sensible one_pos (by positivity) g1)
    (pair_sensible one_pos (by positivity) g2) k1 k2 bb
  set T' := subtractCells T cell with hT'
  have mem : ∀ m, m < T.lam.length → T.lam.getD m 0 ∈ T.lam := fun m hm => by
    rw [List.getD_eq_getElem _ _ hm]; exact List.getElem_mem hm
  have m1 : b / a ∈ T.lam := by rw [← rl]; exact mem l hl
  have m2 : a / b ∈ T.lam := by rw [← rl']; exact mem l' hl'
  have self : ∀ q ∈ T.lam, ∃ t ∈ T.lam, |t - q| ≤ 1 / 10 ^ 8 + 1 / 10 ^ 5 * |q| := fun q hq =>
    ⟨q, hq, by rw [sub_self, abs_zero]; positivity⟩
  have tab : Tabulated T'.lam P k := by
    intro x hx y hy _
    rw [hb] at hx hy
    refine self _ ?_
    interval_cases x <;> interval_cases y
    · rw [← ha, div_self pa.ne']; exact one
    · exact m1
    · exact m2
    · rw [← hbd, div_self pb.ne']; exact one
  have look : ∀ q m g, m < T.lam.length → T.lam.getD m 0 = q → tableScal T' g q s = cellScalars T' g n m := by
    intro q m g hm e
    obtain ⟨m', e1, e2, e3⟩ := lamIndex_separated (T := T') hsep (lam := q) (by rw [← e]; exact mem m hm)
    have : m' = m := by
      have e3' : T.lam.getD m' 0 = q := e3
      rw [← e, List.getD_eq_getElem _ _ hm, List.getD_eq_getElem _ _ (show m' < T.lam.length from e2)] at e3'
      exact (List.Nodup.getElem_inj_iff hdup).mp e3'
    subst this
    unfold tableScal
    rw [e1, ← rs]
    exact scalarsAt_node (T := T') hx hn
  rw [rs] at hk s1 s2
  have k01 : openLink k (centre P) (radius P) 0 1 = some (d, s) := by
    unfold openLink
    dsimp only
    rw [if_pos hk]
  have k10 : openLink k (centre P) (radius P) 1 0 = some (fun i => -d i, s) := by
    have e1 : (len fun i => centre P 0 i - centre P 1 i) = L := by
      rw [hL]
      unfold len
      congr 1
      exact Finset.sum_congr rfl fun i _ => by ring
    unfold openLink
    dsimp only
    rw [e1, ← ha, ← hbd, add_comm b a, if_pos hk]
    congr 2
    funext i
    rw [hd]
    ring
  obtain ⟨M, hM, -, eM⟩ := C20_entry hP (k := k) (by linarith) tab bb
  have hN : generate_R2Bexact T' P k 1 bb = some (NDMat.smul 1 M) := by
    unfold generate_R2Bexact R2BexactOfPairs
    have hM' : generate_R2Bexact_loop T' (NDMat.zeros (11 * P.Ns + 6 * P.Nd) (11 * P.Ns + 6 * P.Nd)) P.Ns P.Nd
        P.beadSize bb (close_particles (P.Ns + 2 * P.Nd) P.beadPos P.beadSize k) = some M := hM
    dsimp only
    rw [hM', Option.bind_eq_bind, Option.bind_some, if_neg (by rw [hNd]; simp)]
  have hG : generate_grand_resistance_matrix T' P (NDMat.zeros 0 0) true k false false 1 bb
      = some ((NDMat.smul 1 M).add C, C) := by
    unfold generate_grand_resistance_matrix
    simp only [if_true, Option.bind_eq_bind]
    rw [hC, Option.bind_some, hN, Option.bind_some]
  have hG' := grand_visc T' P (NDMat.zeros 0 0) true k false false hmu.ne' 1 bb
  rw [hG, mul_one] at hG'
  have hl : generate_grand_resistance_matrix T' P last true k false false mu bb
      = generate_grand_resistance_matrix T' P (NDMat.smul mu (NDMat.zeros 0 0)) true k false false mu bb := by
    unfold generate_grand_resistance_matrix
    simp only [if_true]
  refine ⟨_, _, hl.trans hG', fun x hx y hy c1 c2 => ?_⟩
  show mu * (1 * M.get _ _ + C.get _ _) = _
  rw [one_mul]
  congr 1
  have hr : ∀ x < 2, ∀ c, HasRow P.Ns P.Nd x c := by
    intro x hx c
    rw [hNs, hNd]
    cases c <;> simpa [HasRow] using hx
  have e := eM x c1 y c2 (hr x hx c1) (hr y hy c2)
  rw [hNs, hb] at e
  rw [e]
  have symC : ∀ i j, C.get i j = C.get j i := inv_symm hC fun i j => (C12_symmetric _ _ _ i j).2.1
  have cp1 : ∀ g < 2, cellScalars T g n l = plus (cellScalars T' g n l) (farScal (cell n l) g) :=
    fun g hg => cell_plus hg (cell_symm k1)
  have cp2 : ∀ g < 2, cellScalars T g n l' = plus (cellScalars T' g n l') (farScal (cell n l') g) :=
    fun g hg => cell_plus hg (cell_symm k2)
  have n2 : ∀ x < 2, ∀ y < 2, x ≠ y → ¬ (bb = false ∧ 2 ≤ x ∧ 2 ≤ y) := by intro x hx y hy _; omega
  interval_cases x <;> interval_cases y
  · unfold systemNear
    rw [if_pos rfl, if_pos rfl, Finset.sum_range_succ, Finset.sum_range_one, if_pos rfl, if_neg (by norm_num),
      Finset.sum_range_succ, Finset.sum_range_one, if_pos rfl, if_neg (by norm_num), k01, zero_add, zero_add, o0]
    show nearSelf (tableScal T' 0 (b / a) s) a d c1 c2 + _ = nearSelf (scal 0 (b / a) s) a d c1 c2
    rw [s1, look _ l 0 ‹_› rl, cp1 0 (by norm_num), nearSelf_plus]
  · unfold systemNear
    rw [if_neg (show ¬ (0 : ℕ) = 1 by norm_num), if_neg (n2 0 (by norm_num) 1 (by norm_num) (by norm_num)),
      if_neg (show ¬ (0 : ℕ) = 1 by norm_num), if_neg (n2 0 (by norm_num) 1 (by norm_num) (by norm_num)), k01]
    show nearPair (tableScal T' 1 (b / a) s) (tableScal T' 1 (a / b) s) _ a b d c1 c2 + _
      = nearPair (scal 1 (b / a) s) (scal 1 (a / b) s) _ a b d c1 c2
    rw [s1, s2, look _ l 1 ‹_› rl, look _ l' 1 hl' rl', cp1 1 (by norm_num), cp2 1 (by norm_num)]
    unfold nearPair
    split_ifs with hc
    · rw [p0 c1 c2 (by omega), nearDirect_plus]
    · rw [symC, p1 c2 c1 (by omega), nearDirect_plus]
  · unfold systemNear
    rw [if_neg (show ¬ (1 : ℕ) = 0 by norm_num), if_neg (n2 1 (by norm_num) 0 (by norm_num) (by norm_num)),
      if_neg (show ¬ (1 : ℕ) = 0 by norm_num), if_neg (n2 1 (by norm_num) 0 (by norm_num) (by norm_num)), k10]
    show nearPair (tableScal T' 1 (a / b) s) (tableScal T' 1 (b / a) s) _ b a (fun i => -d i) c1 c2 + _
      = nearPair (scal 1 (a / b) s) (scal 1 (b / a) s) _ b a (fun i => -d i) c1 c2
    rw [s1, s2, look _ l 1 ‹_› rl, look _ l' 1 hl' rl', cp1 1 (by norm_num), cp2 1 (by norm_num)]
    unfold nearPair
    split_ifs with hc
    · rw [p1 c1 c2 (by omega), nearDirect_plus]
    · rw [symC, p0 c2 c1 (by omega), nearDirect_plus]
      simp only [neg_neg]
  · unfold systemNear
    rw [if_pos rfl, if_pos rfl, Finset.sum_range_succ, Finset.sum_range_one, if_neg (by norm_num), if_pos rfl,
      Finset.sum_range_succ, Finset.sum_range_one, if_neg (by norm_num), if_pos rfl, k10, add_zero, add_zero, o1]
    show nearSelf (tableScal T' 0 (a / b) s) b (fun i => -d i) c1 c2 + _ = nearSelf (scal 0 (a / b) s) b (fun i => -d i) c1 c2
    rw [s2, look _ l' 0 hl' rl', cp2 0 (by norm_num), nearSelf_plus]

/-! ## The subtraction keeps the reciprocal theorem -/

theorem far_reciprocal {lam s : ℝ} (hl : 0 < lam) (hs : 1 / 10 ^ 7 < s) {C1 C2 : NDMat}
    (h1 : (generate_Minfinity (pairPosdata 1 lam s) 1 true).inv = some C1)
    (h2 : (generate_Minfinity (pairPosdata 1 (1 / lam) s) 1 true).inv = some C2) :
    Reciprocal (farScal C1 1) (farScal C2 1) 1 lam := by
  have ps : 0 < s := lt_trans (by norm_num) hs
  have big : ∀ q : ℝ, 0 < q → 1 / 10 ^ 8 < s * (1 + 1 * q) * 0.5 := by
    intro q hq
    have : 0 < s * q := by positivity
    norm_num at hs ⊢
    nlinarith
  have sens : ∀ q : ℝ, 0 < q → Sensible (pairPosdata 1 q s) := fun q hq => pair_sensible one_pos hq (big q hq)
  have pL : 0 < s * (1 + 1 * lam) * 0.5 := by positivity
  have two : Two (pairPosdata 1 lam s) 1 lam ex (s * (1 + 1 * lam) * 0.5) :=
    ⟨rfl, rfl, sens lam hl, pair_radius0, by rw [pair_radius1, one_mul], by simp [dotp, ex], pL, fun i => by
      rw [pair_centre0, pair_centre1]; fin_cases i <;> simp [ex]⟩
  have e : s * (1 + 1 * lam) * 0.5 / ((1 + lam) / 2) = s := by norm_num; field_simp
  have t := two_far (C1 := C1) (C2 := C2) two (by rw [e, div_one]; exact sens _ hl) (by rw [e]; exact sens _ (by positivity))
    (by rw [e, div_one]; exact h1) (by rw [e]; exact h2) true
  obtain ⟨C, hC, -, -, p0, p1⟩ := t
  have symC : ∀ i j, C.get i j = C.get j i := inv_symm hC fun i j => (C12_symmetric _ _ _ i j).2.1
  have key : ∀ c1 c2, order c1 = order c2 →
      nearDirect (farScal C1 1) 1 ex c1 c2 = nearDirect (farScal C2 1) lam ex c1 c2 := by
    intro c1 c2 hc
    rw [← p0 c1 c2 hc.ge, symC, p1 c2 c1 hc.le, nearDirect_neg_even _ _ _ (.inl hc.symm),
      nearDirect_symm _ _ (by simp [dotp, ex]) _ _ hc.symm]
  have hpi := Real.pi_pos
  have q3 : Real.sqrt 3 ^ 2 = 3 := Real.sq_sqrt (by norm_num)
  have s3 : Real.sqrt 3 ≠ 0 := by positivity
  have z44 := key (.s 4) (.s 4) rfl
  have hZ : (farScal C1 1).ZM = lam ^ 3 * (farScal C2 1).ZM := by
    have s2 : Real.sqrt 2 ≠ 0 := by positivity
    simp [nearDirect, nearStress, five, dotp, cross, app, ex, basis5, dlt] at z44
    field_simp at z44
    linarith
  refine ⟨?_, ?_, ?_, ?_, ?_, ?_, ?_⟩
  · have := key (.f 0) (.f 0) rfl
    simp [nearDirect, nearForce, dotp, ex, Spec.unit, dlt] at this
    field_simp at this
    linarith
  · have := key (.f 1) (.f 1) rfl
    simp [nearDirect, nearForce, dotp, ex, Spec.unit, dlt] at this
    field_simp at this
    linarith
  · have := key (.t 0) (.t 0) rfl
    simp [nearDirect, nearTorque, dotp, cross, ex, Spec.unit, dlt] at this
    field_simp at this
    linarith
  · have := key (.t 1) (.t 1) rfl
    simp [nearDirect, nearTorque, dotp, cross, ex, Spec.unit, dlt] at this
    field_simp at this
    linarith
  · have := key (.s 2) (.s 0) rfl
    simp [nearDirect, nearStress, five, dotp, cross, app, ex, basis5, dlt] at this
    field_simp at this
    have n3 : Real.sqrt 3 - 3 ≠ 0 := by nlinarith [Real.sqrt_nonneg 3]
    have z : (Real.sqrt 3 - 3) * ((farScal C1 1).XM - lam ^ 3 * (farScal C2 1).XM) = 0 := by
      linear_combination this + (Real.sqrt 3 - 3) * hZ
    rw [one_pow, one_mul]
    exact sub_eq_zero.mp ((mul_eq_zero.mp z).resolve_left n3)
  · have := key (.s 1) (.s 1) rfl
    have s2 : Real.sqrt 2 ≠ 0 := by positivity
    simp [nearDirect, nearStress, five, dotp, cross, app, ex, basis5, dlt] at this
    field_simp at this
    linarith
  · rw [one_pow, one_mul]; exact hZ

theorem npInterp_congr {xs : List ℝ} (hne : xs ≠ []) {f g : ℕ → ℝ} (h : ∀ n < xs.length, f n = g n) (x : ℝ) :
    npInterp x xs f = npInterp x xs g := by
  have hlen : 0 < xs.length := List.length_pos_iff.mpr hne
  unfold npInterp
  dsimp only
  split_ifs with h1 h2
  · exact h 0 hlen
  · exact h _ (by omega)
  · have hlast : (xs.filter fun v => decide (v ≤ x)).length < xs.length := by
      refine lt_of_le_of_ne (List.length_filter_le _ _) fun e => ?_
      have := (List.length_filter_eq_length_iff.mp e) (xs.getD (xs.length - 1) 0) (by
        rw [List.getD_eq_getElem _ _ (by omega)]; exact List.getElem_mem _)
      exact h2 (by simpa using this)
    have hfirst : 0 < (xs.filter fun v => decide (v ≤ x)).length := by
      refine List.length_pos_of_mem (a := xs.getD 0 0) (List.mem_filter.mpr ⟨?_, by simpa using h1⟩)
      rw [List.getD_eq_getElem _ _ hlen]; exact List.getElem_mem _
    rw [h _ (show (xs.filter fun v => decide (v ≤ x)).length - 1 + 1 < xs.length by omega),
      h _ (show (xs.filter fun v => decide (v ≤ x)).length - 1 < xs.length by omega)]

/-- **C18** (subtraction). If the columns of a table for the size ratios `b / a` and `a / b` obey the reciprocal theorem,
so do the columns of the table that the script makes from it, at every distance. -/
theorem C18_subtracted {T T' : ScalarTable} (hT : subtractR2Binfinity T = some T') (hx : T.sDash.Pairwise (· < ·))
    (hs : ∀ s ∈ T.sDash, 1 / 10 ^ 7 < s) (hne : T.sDash ≠ []) {l l' : ℕ} (hl : l < T.lam.length) (hl' : l' < T.lam.length)
    {a b : ℝ} (ha : 0 < a) (hb : 0 < b) (rl : T.lam.getD l 0 = b / a) (rl' : T.lam.getD l' 0 = a / b)
    (h : ∀ s, Reciprocal (scalarsAt T 1 s l) (scalarsAt T 1 s l') a b) (s : ℝ) :
    Reciprocal (scalarsAt T' 1 s l) (scalarsAt T' 1 s l') a b := by
  obtain ⟨cell, rfl, hcell⟩ := subtract_cells hT
  have mem : ∀ n (hn : n < T.sDash.length), T.sDash.getD n 0 ∈ T.sDash := fun n hn => by
    rw [List.getD_eq_getElem _ _ hn]; exact List.getElem_mem hn
  have node : ∀ n, n < T.sDash.length →
      Reciprocal (cellScalars (subtractCells T cell) 1 n l) (cellScalars (subtractCells T cell) 1 n l') a b := by
    intro n hn
    have r0 := h (T.sDash.getD n 0)
    rw [scalarsAt_node hx hn, scalarsAt_node hx hn] at r0
    have k1 := hcell l hl n hn
    have k2 := hcell l' hl' n hn
    have e : a / b = 1 / (b / a) := (one_div_div b a).symm
    rw [rl] at k1
    rw [rl', e] at k2
    have r1 := far_reciprocal (div_pos hb ha) (hs _ (mem n hn)) k1 k2
    rw [cell_plus (by norm_num) (cell_symm k1), cell_plus (by norm_num) (cell_symm k2)] at r0
    have lin : ∀ u v w z : ℝ, a * (u + w) = b * (v + z) → 1 * w = b / a * z → a * u = b * v := by
      intro u v w z h1 h2
      have : a * w = b * z := by rw [one_mul] at h2; rw [h2]; field_simp
      linarith
    have cub : ∀ u v w z : ℝ, a ^ 3 * (u + w) = b ^ 3 * (v + z) → 1 ^ 3 * w = (b / a) ^ 3 * z → a ^ 3 * u = b ^ 3 * v := by
      intro u v w z h1 h2
      have : a ^ 3 * w = b ^ 3 * z := by rw [one_pow, one_mul] at h2; rw [h2]; field_simp
      linarith
    exact ⟨lin _ _ _ _ r0.XA r1.XA, lin _ _ _ _ r0.YA r1.YA, cub _ _ _ _ r0.XC r1.XC, cub _ _ _ _ r0.YC r1.YC,
      cub _ _ _ _ r0.XM r1.XM, cub _ _ _ _ r0.YM r1.YM, cub _ _ _ _ r0.ZM r1.ZM⟩
  have up : ∀ κ (c c' : ℝ), (∀ n < T.sDash.length, c * (subtractCells T cell).raw κ 1 n l
      = c' * (subtractCells T cell).raw κ 1 n l') →
      c * XYZ (subtractCells T cell) κ 1 s l = c' * XYZ (subtractCells T cell) κ 1 s l' := by
    intro κ c c' hκ
    unfold XYZ
    rw [← npInterp_smul, ← npInterp_smul]
    exact npInterp_congr (xs := T.sDash) hne hκ s
  exact ⟨up 0 _ _ fun n hn => (node n hn).XA, up 1 _ _ fun n hn => (node n hn).YA,
    up 3 _ _ fun n hn => (node n hn).XC, up 4 _ _ fun n hn => (node n hn).YC,
    up 8 _ _ fun n hn => (node n hn).XM, up 9 _ _ fun n hn => (node n hn).YM,
    up 10 _ _ fun n hn => (node n hn).ZM⟩

/-- **C18** (grand resistance, tables made by the scripts). If the columns of the original table obey the reciprocal
theorem and all size ratios that occur are tabulated, renumbering spheres by a permutation `σ` and dumbbells by a
permutation `τ` renumbers the loads that the grand resistance matrix gives for renumbered motions, in every mode. -/
theorem C18_grand_subtracted {T T' : ScalarTable} (hT : subtractR2Binfinity T = some T') (hx : T.sDash.Pairwise (· < ·))
    (hs : ∀ s ∈ T.sDash, 1 / 10 ^ 7 < s) (hne : T.sDash ≠ []) (hsep : Separated T.lam)
    (hcol : ∀ l < T.lam.length, ∀ l' < T.lam.length, ∀ a b : ℝ, 0 < a → 0 < b → T.lam.getD l 0 = b / a →
      T.lam.getD l' 0 = a / b → ∀ s, Reciprocal (scalarsAt T 1 s l) (scalarsAt T 1 s l') a b)
    {P : PosData} (hP : Sensible P) {c : ℝ} (hc : 0 < c)
    (hrat : ∀ x < beads P, ∀ y < beads P, radius P y / radius P x ∈ T.lam)
    {σ τ : ℕ → ℕ} (hσ : ∀ i < P.Ns, σ i < P.Ns)
    (hτ : ∀ i < P.Nd, τ i < P.Nd) (iσ : ∀ i < P.Ns, ∀ j < P.Ns, σ i = σ j → i = j)
    (iτ : ∀ i < P.Nd, ∀ j < P.Nd, τ i = τ j → i = j) {last last' : NDMat}
    {reg dragM only bb : Bool} {mu : ℝ} {R C : NDMat}
    (hl : dragM = false → reg = false → ∀ v v', GrandRenumbered P.Ns P.Nd σ τ v v' →
      GrandRenumbered P.Ns P.Nd σ τ (mulVec (side P) last.get v) (mulVec (side P) last'.get v'))
    (h : generate_grand_resistance_matrix T' P last reg c dragM only mu bb = some (R, C)) :
    ∃ R' C', generate_grand_resistance_matrix T' (relabel P σ τ) last' reg c dragM only mu bb = some (R', C') ∧
      ∀ v v', GrandRenumbered P.Ns P.Nd σ τ v v' →
        GrandRenumbered P.Ns P.Nd σ τ (mulVec (side P) R.get v) (mulVec (side P) R'.get v') ∧
        GrandRenumbered P.Ns P.Nd σ τ (mulVec (side P) C.get v) (mulVec (side P) C'.get v') := by
  obtain ⟨cell, hT', -⟩ := subtract_cells hT
  have lam' : T'.lam = T.lam := by rw [hT']; rfl
  refine C18_grand_of_reciprocal hP hc ?_ ?_ hσ hτ iσ iτ hl h
  · intro x hx y hy _
    exact ⟨_, lam' ▸ hrat x hx y hy, by rw [sub_self, abs_zero]; positivity⟩
  · intro x hx' y hy' _ s
    obtain ⟨l, e1, e2, e3⟩ := lamIndex_separated (T := T') (by rw [lam']; exact hsep) (lam' ▸ hrat x hx' y hy')
    obtain ⟨l', f1, f2, f3⟩ := lamIndex_separated (T := T') (by rw [lam']; exact hsep) (lam' ▸ hrat y hy' x hx')
    unfold tableScal
    rw [e1, f1]
    rw [lam'] at e2 e3 f2 f3
    have px := hP.radius_pos x hx'
    have py := hP.radius_pos y hy'
    exact C18_subtracted hT hx hs hne e2 f2 px py e3 f3 (hcol l e2 l' f2 _ _ px py e3 f3) s

/-- **C18** (grand resistance, lubrication table). With the table made by the two scripts from the near-field
formulae, the numbering of the particles does not matter. -/
theorem C18_grand_lubrication {ss lams : List ℝ} {T' : ScalarTable}
    (hT : subtractR2Binfinity (Nearfield.nearfield_table ss lams) = some T') (hx : ss.Pairwise (· < ·))
    (hs : ∀ s ∈ ss, 1 / 10 ^ 7 < s) (hne : ss ≠ []) (hsep : Separated (Nearfield.with_reciprocals lams))
    {P : PosData} (hP : Sensible P) {c : ℝ} (hc : 0 < c)
    (hrat : ∀ x < beads P, ∀ y < beads P, radius P y / radius P x ∈ lams ∨ radius P x / radius P y ∈ lams)
    {σ τ : ℕ → ℕ} (hσ : ∀ i < P.Ns, σ i < P.Ns)
    (hτ : ∀ i < P.Nd, τ i < P.Nd) (iσ : ∀ i < P.Ns, ∀ j < P.Ns, σ i = σ j → i = j)
    (iτ : ∀ i < P.Nd, ∀ j < P.Nd, τ i = τ j → i = j) {last last' : NDMat}
    {reg dragM only bb : Bool} {mu : ℝ} {R C : NDMat}
    (hl : dragM = false → reg = false → ∀ v v', GrandRenumbered P.Ns P.Nd σ τ v v' →
      GrandRenumbered P.Ns P.Nd σ τ (mulVec (side P) last.get v) (mulVec (side P) last'.get v'))
    (h : generate_grand_resistance_matrix T' P last reg c dragM only mu bb = some (R, C)) :
    ∃ R' C', generate_grand_resistance_matrix T' (relabel P σ τ) last' reg c dragM only mu bb = some (R', C') ∧
      ∀ v v', GrandRenumbered P.Ns P.Nd σ τ v v' →
        GrandRenumbered P.Ns P.Nd σ τ (mulVec (side P) R.get v) (mulVec (side P) R'.get v') ∧
        GrandRenumbered P.Ns P.Nd σ τ (mulVec (side P) C.get v) (mulVec (side P) C'.get v') := by
  refine C18_grand_subtracted hT hx hs hne hsep (fun l _ l' _ a b ha hb e e' s => C46_columns ha hb e e' s) hP hc
    (fun x hx y hy => ?_) hσ hτ iσ iτ hl h
  rw [show (Nearfield.nearfield_table ss lams).lam = Nearfield.with_reciprocals lams from rfl, mem_with_reciprocals,
    one_div_div]
  exact hrat x hx y hy

/-! ## Concrete cases -/

/-- Spheres of radius 3 and 6, obliquely placed, 22500 apart: `s' = 5000`. -/
noncomputable def obliqueP : PosData where
  Ns := 2
  Nd := 0
  sphereSize := fun i => if i = 0 then 3 else 6
  spherePos := fun i => if i = 0 then ![1, 1, 1] else ![7501, 15001, 15001]
  dumbSize := fun _ => 0
  dumbPos := fun _ _ => 0
  dumbDx := fun _ _ => 0

theorem oblique_radius0 : radius obliqueP 0 = 3 := by simp [radius, obliqueP]
theorem oblique_radius1 : radius obliqueP 1 = 6 := by simp [radius, obliqueP]

theorem oblique_len : (len fun i => centre obliqueP 1 i - centre obliqueP 0 i) = 22500 := by
  unfold len
  rw [Real.sqrt_eq_iff_mul_self_eq (by positivity) (by norm_num)]
  simp [Fin.sum_univ_three, centre, obliqueP]
  norm_num

theorem oblique_len' : (len fun i => centre obliqueP 0 i - centre obliqueP 1 i) = 22500 := by
  unfold len
  rw [Real.sqrt_eq_iff_mul_self_eq (by positivity) (by norm_num)]
  simp [Fin.sum_univ_three, centre, obliqueP]
  norm_num

theorem oblique_sensible : Sensible obliqueP := by
  constructor
  · intro x hx
    have : x < 2 := hx
    interval_cases x
    · rw [oblique_radius0]; norm_num
    · rw [oblique_radius1]; norm_num
  · intro x hx y hy hxy
    have hx' : x < 2 := hx
    have hy' : y < 2 := hy
    interval_cases x <;> interval_cases y
    · exact absurd rfl hxy
    · rw [oblique_len']; norm_num
    · rw [oblique_len]; norm_num
    · exact absurd rfl hxy

theorem subtract_dilute {T : ScalarTable} (hl : ∀ lam ∈ T.lam, 0 < lam) (hs : ∀ s ∈ T.sDash, 3520 < s) :
    ∃ T', subtractR2Binfinity T = some T' := by
  obtain ⟨cells, h⟩ := mapM_isSome (fun lam => T.sDash.mapM fun s_dash =>
      (generate_Minfinity (pairPosdata 1 lam s_dash) 1 true).inv) T.lam (by
    intro lam hlam
    refine mapM_isSome _ _ fun s hs' => ?_
    have h1 := hl lam hlam
    have h2 := hs s hs'
    obtain ⟨C, hC, -⟩ := C49_inverse (pair_sensible one_pos h1 (lt_of_lt_of_le (by norm_num : (1 / 10 ^ 8 : ℝ)
      < 1760) (by nlinarith))) (pair_dilute one_pos h1 h2) one_pos true
    exact ⟨C, hC⟩)
  exact ⟨_, by unfold subtractR2Binfinity; rw [h]; rfl⟩

theorem three_mem (y : ℝ) : y ∈ Nearfield.with_reciprocals [1 / 2, 1] ↔ y = 1 / 2 ∨ y = 1 ∨ y = 2 := by
  rw [mem_with_reciprocals]
  simp only [List.mem_cons, List.not_mem_nil, or_false]
  constructor
  · rintro ((h | h) | h | h)
    · exact .inl h
    · exact .inr (.inl h)
    · right; right
      have : y ≠ 0 := by rintro rfl; norm_num at h
      field_simp at h; linarith
    · right; left
      have : y ≠ 0 := by rintro rfl; norm_num at h
      field_simp at h; linarith
  · rintro (h | h | h) <;> subst h <;> norm_num

theorem three_separated : Separated (Nearfield.with_reciprocals [1 / 2, 1]) := by
  intro t ht u hu h
  rcases (three_mem t).mp ht with rfl | rfl | rfl <;> rcases (three_mem u).mp hu with rfl | rfl | rfl <;>
    first
      | rfl
      | (exfalso; norm_num [abs_of_pos, abs_of_neg] at h)

theorem three_nodup : (Nearfield.with_reciprocals [1 / 2, 1]).Nodup := by
  unfold Nearfield.with_reciprocals
  rw [(List.mergeSort_perm _ _).nodup_iff]
  rw [List.nodup_append]
  refine ⟨by norm_num, List.Nodup.filter _ (by norm_num), ?_⟩
  intro a ha b hb
  have := (List.mem_filter.mp hb).2
  simp only [decide_eq_true_eq] at this
  rintro rfl
  exact this ha

/-- A table with two large distances and the ratios 1/2, 1, 2, and the two spheres above. -/
theorem oblique_case {T : ScalarTable} (hs : T.sDash = [4000, 5000]) (hl : T.lam = Nearfield.with_reciprocals [1 / 2, 1]) :
    ∃ T', subtractR2Binfinity T = some T' ∧
    ∃ R C, generate_grand_resistance_matrix T' obliqueP (NDMat.zeros 0 0) true 3000 false false 7 true = some (R, C) := by
  obtain ⟨T', hT⟩ := subtract_dilute (T := T)
    (by intro lam h; rw [hl] at h; rcases (three_mem lam).mp h with rfl | rfl | rfl <;> norm_num)
    (by intro s h
        rw [hs] at h
        simp only [List.mem_cons, List.not_mem_nil, or_false] at h
        rcases h with rfl | rfl <;> norm_num)
  obtain ⟨l, hl1, e⟩ := List.getElem_of_mem ((three_mem 2).mpr (by simp))
  obtain ⟨l', hl', e'⟩ := List.getElem_of_mem ((three_mem (1 / 2)).mpr (by simp))
  refine ⟨T', hT, ?_⟩
  have hd : (5000 : ℝ) = (len fun i => centre obliqueP 1 i - centre obliqueP 0 i)
      / ((radius obliqueP 0 + radius obliqueP 1) / 2) := by
    rw [oblique_len, oblique_radius0, oblique_radius1]; norm_num
  obtain ⟨R, C, h, -⟩ := C44_two_spheres hT (by rw [hs]; norm_num) (by rw [hl]; exact three_separated)
    (by rw [hl]; exact three_nodup)
    (by rw [hl]; exact (three_mem 1).mpr (by simp)) oblique_sensible rfl rfl (n := 1) (l := l) (l' := l')
    (by rw [hs]; simp) (by rw [hl]; exact hl1) (by rw [hl]; exact hl')
    (by rw [hl, oblique_radius0, oblique_radius1]; exact (List.getD_eq_getElem _ _ hl1).trans (e.trans (by norm_num)))
    (by rw [hl, oblique_radius0, oblique_radius1]; exact (List.getD_eq_getElem _ _ hl').trans (e'.trans (by norm_num)))
    (by rw [hs]; exact hd) (by rw [oblique_len, oblique_radius0]; norm_num)
    (by rw [oblique_len, oblique_radius1]; norm_num)
    (k := 3000) (by rw [hs]; norm_num) (mu := 7) (by norm_num) true (NDMat.zeros 0 0)
    (fun g q _ => if q = 2 then cellScalars T g 1 l else cellScalars T g 1 l')
    (by intro g; rw [oblique_radius0, oblique_radius1, if_pos (by norm_num)])
    (by intro g; rw [oblique_radius0, oblique_radius1, if_neg (by norm_num)])
  exact ⟨R, C, h⟩

/-- The two spheres may be listed the other way round. -/
example : ∃ T' R' C', subtractR2Binfinity (Nearfield.nearfield_table [4000, 5000] [1 / 2, 1]) = some T' ∧
    generate_grand_resistance_matrix T' (relabel obliqueP (fun i => 1 - i) id) (NDMat.zeros 0 0) true 3000 false false
      7 true = some (R', C') := by
  obtain ⟨T', hT, R, C, h⟩ := oblique_case (T := Nearfield.nearfield_table [4000, 5000] [1 / 2, 1]) rfl rfl
  obtain ⟨R', C', h', -⟩ := C18_grand_lubrication (last' := NDMat.zeros 0 0) hT (by norm_num)
    (by intro s h
        simp only [List.mem_cons, List.not_mem_nil, or_false] at h
        rcases h with rfl | rfl <;> norm_num)
    (by simp) three_separated oblique_sensible (by norm_num)
    (by intro x hx y hy
        have hx' : x < 2 := hx
        have hy' : y < 2 := hy
        interval_cases x <;> interval_cases y <;> simp only [oblique_radius0, oblique_radius1] <;> norm_num)
    (σ := fun i => 1 - i) (τ := id) (by simp only [obliqueP]; intros; omega) (by simp [obliqueP])
    (by simp only [obliqueP]; intros; omega) (by simp) (by simp) h
  exact ⟨T', R', C', hT, h'⟩

end SD
