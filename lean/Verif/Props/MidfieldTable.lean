import Verif.Props.Midfield
import Verif.Lemmas.NearTensor
import Verif.Lemmas.IsotropySystem

/-!
# The table of scalars made from the Fortran program, and the simulation's near-field matrix (C45)
-/

set_option autoImplicit false

namespace SD

open Spec TwoSphere Matrix

/-- **C45** (reciprocity). The conversion keeps the reciprocal theorem. -/
theorem C45_balanced {z R : PairScalars} (h : convert_dim_kim_mobility_to_dim_resistance z = some R)
    (hz : Balanced z) : Balanced R := by
  unfold convert_dim_kim_mobility_to_dim_resistance at h
  simp only [Option.bind_eq_bind, Option.bind_eq_some_iff] at h
  obtain ⟨XA, hxa, XC, hxc, Q, hq, h⟩ := h
  replace h := Option.some.inj h
  obtain ⟨a1, a2⟩ := npInv_some hxa
  obtain ⟨c1, c2⟩ := npInv_some hxc
  obtain ⟨q1, q2⟩ := npInv_some hq
  have sA : XAᵀ = XA := inv_symm_of_symm a1 a2 (by
    ext i j; fin_cases i <;> fin_cases j <;> simp [mat2, hz.XA])
  have sC : XCᵀ = XC := inv_symm_of_symm c1 c2 (by
    ext i j; fin_cases i <;> fin_cases j <;> simp [mat2, hz.XC])
  have sQ : Qᵀ = Q := inv_symm_of_symm q1 q2 (by
    ext i j; fin_cases i <;> fin_cases j <;> simp [matrix_yabc])
  have tA := fun i j => congrFun (congrFun sA j) i
  have tQ := fun i j => congrFun (congrFun sQ j) i
  simp only [Matrix.transpose_apply] at tA tQ
  subst h
  refine ⟨tA 0 1, ?_, congrFun (congrFun sC 1) 0, ?_, ?_, ?_, hz.ZM⟩
  · simp [quad, tQ 0 1]
  · simp [quad, tQ 2 3]
  · simp only [Matrix.add_apply, Matrix.smul_apply, mat2_apply, hz.XM, Matrix.mul_apply, Fin.sum_univ_two]
    rw [tA 1 0]
    simp [mat2t]
    ring
  · have hN : (matrix_ygh z)ᵀ * Q * matrix_ygh z = ((matrix_ygh z)ᵀ * Q * matrix_ygh z)ᵀ := by
      rw [Matrix.transpose_mul, Matrix.transpose_mul, sQ, Matrix.transpose_transpose, Matrix.mul_assoc]
    have h01 := congrFun (congrFun hN 0) 1
    have e : ((matrix_ygh z)ᵀ * Q) = (Q * matrix_ygh z)ᵀ := by rw [Matrix.transpose_mul, sQ]
    rw [e] at h01
    generalize Q * matrix_ygh z = N at h01 ⊢
    simp [Matrix.mul_apply, Fin.sum_univ_two, Fin.sum_univ_four, matrix_ygh] at h01
    simp [Matrix.mul_apply, Fin.sum_univ_two, mat2, mat2t, quad, hz.YM]
    linarith

/-- The scalars of sphere `α` for the motion of sphere `β`. -/
def PairScalars.at (R : PairScalars) (α β : Fin 2) : Scalars where
  XA := R.XA α β
  YA := R.YA α β
  YB := R.YB α β
  XC := R.XC α β
  YC := R.YC α β
  XG := R.XG α β
  YG := R.YG α β
  YH := R.YH α β
  XM := R.XM α β
  YM := R.YM α β
  ZM := R.ZM α β

/-- Dimensional scalars. -/
noncomputable def dimS (z : Scalars) (a : ℝ) : Scalars where
  XA := 6 * Real.pi * a * z.XA
  YA := 6 * Real.pi * a * z.YA
  YB := 4 * Real.pi * a ^ 2 * z.YB
  XC := 8 * Real.pi * a ^ 3 * z.XC
  YC := 8 * Real.pi * a ^ 3 * z.YC
  XG := 4 * Real.pi * a ^ 2 * z.XG
  YG := 4 * Real.pi * a ^ 2 * z.YG
  YH := 8 * Real.pi * a ^ 3 * z.YH
  XM := 20 / 3 * Real.pi * a ^ 3 * z.XM
  YM := 20 / 3 * Real.pi * a ^ 3 * z.YM
  ZM := 20 / 3 * Real.pi * a ^ 3 * z.ZM

/-- Scalars with respect to the opposite axis. -/
def flipS (z : Scalars) : Scalars := { z with YB := -z.YB, XG := -z.XG, YG := -z.YG }

/-- Entries of the tensors, for loads of at least the order of the motion. -/
noncomputable def tens (z : Scalars) (d : Fin 3 → ℝ) (c1 c2 : Comp) : ℝ :=
  match c1, c2 with
  | .f i, .f j => kkA z.XA z.YA d i j
  | .t i, .f j => kkB z.YB d i j
  | .t i, .t j => kkA z.XC z.YC d i j
  | .s p, .f j => five (fun k l => kkG z.XG z.YG d k l j) p
  | .s p, .t j => five (fun k l => kkH z.YH d k l j) p
  | .s p, .s q => five (fun i j => ∑ k, ∑ l, kkM z.XM z.YM z.ZM d i j k l * basis5 q k l) p
  | _, _ => 0

theorem direct_tens (z : Scalars) (a : ℝ) (d : Fin 3 → ℝ) (c1 c2 : Comp) :
    nearDirect z a d c1 c2 = tens (dimS z a) d c1 c2 := by
  have z0 : ∀ i, cross 0 d i = 0 := by apply fin3 <;> simp [cross0, cross1, cross2]
  have d0 : dotp d 0 = 0 := by simp [dotp]
  have a0 : ∀ i, app 0 d i = 0 := by intro i; simp [app, dotp]
  have du : ∀ j, dotp d (Spec.unit j) = d j := by apply fin3 <;> simp [dotp, Spec.unit, dlt]
  have dl : ∀ i j : Fin 3, dlt i j = dlt j i := by intro i j; simp [dlt, eq_comm]
  cases c1 with
  | f i => cases c2 with
    | f j => simp only [nearDirect, tens, nearForce, kkA, dimS, du, Spec.unit]; ring
    | t j => rfl
    | s q => rfl
  | t i => cases c2 with
    | f j =>
      simp only [nearDirect, tens, nearTorque, kkB, dimS, d0, Pi.zero_apply]; ring
    | t j => simp only [nearDirect, tens, nearTorque, kkA, dimS, du, Spec.unit, z0]; ring
    | s q => rfl
  | s p => cases c2 with
    | f j =>
      simp only [nearDirect, tens]
      refine congrFun (congrArg five (funext fun k => funext fun l => ?_)) p
      have h0 : dotp d (app 0 d) = 0 := by simp [dotp, app]
      simp only [nearStress, kkG, dimS, z0, h0, a0, du, Pi.zero_apply, Spec.unit]
      ring
    | t j =>
      simp only [nearDirect, tens]
      refine congrFun (congrArg five (funext fun k => funext fun l => ?_)) p
      have h0 : dotp d (app 0 d) = 0 := by simp [dotp, app]
      simp only [nearStress, kkH, dimS, z0, h0, a0, d0, Pi.zero_apply]
      ring
    | s q =>
      simp only [nearDirect, tens]
      refine congrFun (congrArg five (funext fun k => funext fun l => ?_)) p
      rw [kkM_app _ _ _ _ (basis5_symm q)]
      simp only [nearStress, dimS, z0, d0, Pi.zero_apply, zz, par, per]
      ring

theorem tens_flip (z : Scalars) (d : Fin 3 → ℝ) (c1 c2 : Comp) :
    tens z (fun i => -d i) c1 c2 = tens (flipS z) d c1 c2 := by
  have hx : ∀ (x : Fin 3 → ℝ) (i : Fin 3), cross x (fun i => -d i) i = -cross x d i := by
    intro x; apply fin3 <;> simp only [cross0, cross1, cross2] <;> ring
  cases c1 with
  | f i => cases c2 <;> simp only [tens, kkA, flipS] <;> ring
  | t i => cases c2 <;> simp only [tens, kkA, kkB, flipS, hx] <;> ring
  | s p =>
    cases c2 with
    | f j =>
      simp only [tens]
      refine congrFun (congrArg five (funext fun k => funext fun l => ?_)) p
      simp only [kkG, flipS]; ring
    | t j =>
      simp only [tens]
      refine congrFun (congrArg five (funext fun k => funext fun l => ?_)) p
      simp only [kkH, flipS, hx]; ring
    | s q =>
      simp only [tens]
      refine congrFun (congrArg five (funext fun k => funext fun l => ?_)) p
      refine Finset.sum_congr rfl fun m _ => Finset.sum_congr rfl fun n _ => ?_
      simp only [kkM, flipS]; ring

theorem kkM_symTraceless (X Y Z : ℝ) {d : Fin 3 → ℝ} (hd : dotp d d = 1) (i j : Fin 3) :
    SymTraceless (kkM X Y Z d i j) := by
  have dl : ∀ i j : Fin 3, dlt i j = dlt j i := by intro i j; simp [dlt, eq_comm]
  constructor
  · intro k l
    simp only [kkM]
    rw [dl k l]; ring
  · have key : kkM X Y Z d i j 0 0 + kkM X Y Z d i j 1 1 + kkM X Y Z d i j 2 2
        = (X * (3 / 2) * (d i * d j - dlt i j / 3) - Y * 2 * (d i * d j)
          + Z / 2 * (dlt i j + d i * d j)) * (dotp d d - 1) := by
      simp only [kkM, dotp]
      revert j
      revert i
      apply fin3 <;> apply fin3 <;> simp [dlt] <;> ring
    rw [key, hd]; ring

theorem tens_symm (z : Scalars) {d : Fin 3 → ℝ} (hd : dotp d d = 1) (c1 c2 : Comp) (h : order c1 = order c2) :
    tens z d c1 c2 = tens z d c2 c1 := by
  have dl : ∀ i j : Fin 3, dlt i j = dlt j i := by intro i j; simp [dlt, eq_comm]
  cases c1 with
  | f i =>
    cases c2 with
    | f j => simp only [tens, kkA]; rw [dl i j]; ring
    | t j => simp [order] at h
    | s q => simp [order] at h
  | t i =>
    cases c2 with
    | f j => simp [order] at h
    | t j => simp only [tens, kkA]; rw [dl i j]; ring
    | s q => simp [order] at h
  | s p =>
    cases c2 with
    | f j => simp [order] at h
    | t j => simp [order] at h
    | s q =>
      have e : ∀ p q, tens z d (.s p) (.s q)
          = ∑ i, ∑ j, ∑ k, ∑ l, basis5 p i j * (kkM z.XM z.YM z.ZM d i j k l * basis5 q k l) := by
        intro p q
        simp only [tens]
        rw [← basis5_contract]
        · simp only [Finset.mul_sum]
        · have ht := fun k l => kkM_symTraceless z.XM z.YM z.ZM hd k l
          have hs : ∀ i j k l, kkM z.XM z.YM z.ZM d i j k l = kkM z.XM z.YM z.ZM d k l i j := by
            intro i j k l
            simp only [kkM]
            rw [dl i k, dl i l, dl j k, dl j l]
            ring
          constructor
          · intro i j
            refine Finset.sum_congr rfl fun k _ => Finset.sum_congr rfl fun l _ => ?_
            rw [hs i j, hs j i, (ht k l).1 i j]
          · rw [← Finset.sum_add_distrib, ← Finset.sum_add_distrib]
            refine Finset.sum_eq_zero fun k _ => ?_
            rw [← Finset.sum_add_distrib, ← Finset.sum_add_distrib]
            refine Finset.sum_eq_zero fun l _ => ?_
            rw [hs 0 0, hs 1 1, hs 2 2]
            have := (ht k l).2
            linear_combination basis5 q k l * this
      rw [e, e]
      have hs : ∀ i j k l, kkM z.XM z.YM z.ZM d i j k l = kkM z.XM z.YM z.ZM d k l i j := by
        intro i j k l
        simp only [kkM]
        rw [dl i k, dl i l, dl j k, dl j l]
        ring
      have sw : ∀ f : Fin 3 → Fin 3 → Fin 3 → Fin 3 → ℝ,
          ∑ i, ∑ j, ∑ k, ∑ l, f i j k l = ∑ k, ∑ l, ∑ i, ∑ j, f i j k l := by
        intro f
        simp only [Fin.sum_univ_three]; ring
      rw [sw]
      refine Finset.sum_congr rfl fun i _ => Finset.sum_congr rfl fun j _ =>
        Finset.sum_congr rfl fun k _ => Finset.sum_congr rfl fun l _ => ?_
      rw [hs k l i j]; ring

/-- Entries of the resistance matrix of the pair. -/
noncomputable def full (R : PairScalars) (d : Fin 3 → ℝ) (α β : Fin 2) (c1 c2 : Comp) : ℝ :=
  if order c2 ≤ order c1 then tens (R.at α β) d c1 c2 else tens (R.at β α) d c2 c1

theorem kkG_symTraceless (X Y : ℝ) {d : Fin 3 → ℝ} (hd : dotp d d = 1) (k : Fin 3) :
    SymTraceless fun i j => kkG X Y d i j k := by
  have dl : ∀ i j : Fin 3, dlt i j = dlt j i := by intro i j; simp [dlt, eq_comm]
  constructor
  · intro i j
    simp only [kkG]
    rw [dl i j]; ring
  · have key : kkG X Y d 0 0 k + kkG X Y d 1 1 k + kkG X Y d 2 2 k
        = (X - 2 * Y) * d k * (dotp d d - 1) := by
      simp only [kkG, dotp]
      revert k
      apply fin3 <;> simp [dlt] <;> ring
    show kkG X Y d 0 0 k + kkG X Y d 1 1 k + kkG X Y d 2 2 k = 0
    rw [key, hd]; ring

theorem kkH_symTraceless (Y : ℝ) (d : Fin 3 → ℝ) (k : Fin 3) : SymTraceless fun i j => kkH Y d i j k := by
  constructor
  · intro i j
    simp only [kkH]; ring
  · simp only [kkH, cross0, cross1, cross2]; ring

theorem five_contract {X E : Fin 3 → Fin 3 → ℝ} (hX : SymTraceless X) (hE : SymTraceless E) :
    ∑ q, five X q * five E q = ∑ i, ∑ j, X i j * E i j := by
  have h : ∀ i j, X i j = ∑ q, five X q * basis5 q i j := basis5_expand hX
  simp only [← basis5_contract E hE]
  rw [show (∑ i, ∑ j, X i j * E i j) = ∑ i, ∑ j, (∑ q, five X q * basis5 q i j) * E i j from
    Finset.sum_congr rfl fun i _ => Finset.sum_congr rfl fun j _ => by rw [← h]]
  simp only [Fin.sum_univ_three, Fin.sum_univ_five]
  ring

/-- The resistance relation in condensed components. -/
theorem resistance_comps {R : PairScalars} {d : Fin 3 → ℝ} (hd : dotp d d = 1)
    {F T U O : Fin 2 → Fin 3 → ℝ} {E S : Fin 2 → Fin 3 → Fin 3 → ℝ} (hE : ∀ β, SymTraceless (E β))
    (h : Resistance R d U O E F T S) (α : Fin 2) (c : Comp) :
    comps (F α) (T α) (S α) c = ∑ β, ((∑ j, full R d α β c (.f j) * U β j)
      + (∑ j, full R d α β c (.t j) * O β j) + ∑ q, full R d α β c (.s q) * five (E β) q) := by
  cases c with
  | f i =>
    rw [show comps (F α) (T α) (S α) (.f i) = F α i from rfl, h.first α i]
    refine Finset.sum_congr rfl fun β _ => ?_
    have e := five_contract (kkG_symTraceless (R.XG β α) (R.YG β α) hd i) (hE β)
    rw [one_mul, ← e]
    rfl
  | t i =>
    rw [show comps (F α) (T α) (S α) (.t i) = T α i from rfl, h.second α i]
    refine Finset.sum_congr rfl fun β _ => ?_
    have e := five_contract (kkH_symTraceless (R.YH β α) d i) (hE β)
    rw [one_mul, ← e]
    rfl
  | s p =>
    have e : ∀ β i j, (∑ k, ∑ l, kkM (R.XM α β) (R.YM α β) (R.ZM α β) d i j k l * E β k l)
        = ∑ q, five (E β) q *
          ∑ k, ∑ l, kkM (R.XM α β) (R.YM α β) (R.ZM α β) d i j k l * basis5 q k l := by
      intro β i j
      have h : ∀ i j, E β i j = ∑ q, five (E β) q * basis5 q i j := basis5_expand (hE β)
      rw [show (∑ k, ∑ l, kkM (R.XM α β) (R.YM α β) (R.ZM α β) d i j k l * E β k l)
        = ∑ k, ∑ l, kkM (R.XM α β) (R.YM α β) (R.ZM α β) d i j k l * (∑ q, five (E β) q * basis5 q k l) from
        Finset.sum_congr rfl fun k _ => Finset.sum_congr rfl fun l _ => by rw [← h]]
      simp only [Fin.sum_univ_three, Fin.sum_univ_five]
      ring
    show five (S α) p = _
    rw [show S α = fun i j => _ from funext fun i => funext fun j => h.third α i j]
    simp only [e, full, order, Nat.zero_le, le_refl, if_true, tens, PairScalars.at,
      show (1 : ℕ) ≤ 2 by norm_num]
    fin_cases p <;> simp only [five, Fin.sum_univ_two, Fin.sum_univ_three, Fin.sum_univ_five,
      Matrix.cons_val, Fin.zero_eta, Fin.mk_one, Fin.reduceFinMk] <;> ring

/-- The formulas of the simulation's near field, for scalars of the two spheres that describe the same
resistance matrix, give that matrix. -/
theorem twoNear_full {R : PairScalars} (hR : Balanced R) {own other : Fin 2 → Scalars} {a : Fin 2 → ℝ}
    {d : Fin 3 → ℝ} (hd : dotp d d = 1)
    (h00 : dimS (own 0) (a 0) = R.at 0 0) (h01 : dimS (other 0) (a 0) = R.at 0 1)
    (h11 : flipS (dimS (own 1) (a 1)) = R.at 1 1) (h10 : flipS (dimS (other 1) (a 1)) = R.at 1 0)
    (x y : Fin 2) (c1 c2 : Comp) : twoNear own other a d x y c1 c2 = full R d x y c1 c2 := by
  have hdd : (fun i => - -d i) = d := by funext i; simp
  have e1 : (if (1 : Fin 2) = 0 then d else fun i => -d i) = fun i => -d i := if_neg (by decide)
  have hsame : ∀ c1 c2, order c1 = order c2 → tens (R.at 0 1) d c2 c1 = tens (R.at 1 0) d c1 c2 := by
    intro c1 c2 ho
    rw [tens_symm _ hd c2 c1 ho.symm]
    cases c1 <;> cases c2 <;> first
      | (simp [order] at ho; done)
      | simp only [tens, PairScalars.at, hR.XA, hR.YA, hR.XC, hR.YC, hR.XM, hR.YM, hR.ZM]
  unfold twoNear full
  dsimp only
  fin_cases x <;> fin_cases y
  · simp only [Fin.zero_eta, if_true, nearSelf, direct_tens, h00]
  · simp only [Fin.zero_eta, Fin.mk_one, if_true, nearPair, direct_tens, h01, tens_flip, h10]
    rw [if_neg (by decide)]
    by_cases h : order c2 ≤ order c1
    · rw [if_pos h, if_pos]
      rcases lt_or_eq_of_le h with h | h
      exacts [Or.inl h, Or.inr ⟨h, by decide⟩]
    · rw [if_neg h, if_neg]
      rintro (h' | h')
      · omega
      · omega
  · simp only [Fin.zero_eta, Fin.mk_one, nearPair, direct_tens, e1, hdd, h01]
    rw [if_neg (by decide)]
    by_cases h : order c2 < order c1
    · rw [if_pos (Or.inl h), if_pos h.le, tens_flip, h10]
    · rw [if_neg (by rintro (h' | h'); exacts [h h', absurd h'.2 (by decide)])]
      by_cases h' : order c2 ≤ order c1
      · rw [if_pos h', hsame c1 c2 (by omega)]
      · rw [if_neg h']
  · simp only [Fin.mk_one, if_true, nearSelf, direct_tens, e1, tens_flip, h11]

/-- The table columns for the size ratio `lam` and for `1 / lam`, made from the same run of the script. -/
theorem columns_at {R : PairScalars} {tab : ℕ → ℝ}
    (h : tab = nondimensionalise_scalars R.toList resistance_scales) {lam : ℝ} (hl : 0 < lam) :
    dimS (ofColumn fun k => generalColumn tab k 0) 1 = R.at 0 0 ∧
    dimS (ofColumn fun k => generalColumn tab k 1) 1 = R.at 0 1 ∧
    flipS (dimS (ofColumn fun k => reciprocalColumn (1 / lam) tab k 0) lam) = R.at 1 1 ∧
    flipS (dimS (ofColumn fun k => reciprocalColumn (1 / lam) tab k 1) lam) = R.at 1 0 := by
  have hpi := Real.pi_ne_zero
  subst h
  refine ⟨?_, ?_, ?_, ?_⟩ <;>
  · simp only [dimS, flipS, ofColumn, generalColumn, reciprocalColumn, nondimensionalise_scalars,
      PairScalars.at, PairScalars.toList, four, resistance_scales, minus_in_B_and_G, lam_scales_r]
    norm_num
    refine ⟨?_, ?_, ?_, ?_, ?_, ?_, ?_, ?_, ?_, ?_, ?_⟩ <;> field_simp

/-- **C45** (table). Suppose the Fortran program solves the mobility problem with scalars `z` that obey the
reciprocal theorem, for spheres of radius 1 and `lam`. Then the near-field formulas of the simulation, with the
table column for `lam` seen from the first sphere and the column for `1 / lam` seen from the second, turn the
velocities, angular velocities and strain rates of any solution of the mobility problem, about any axis, into
its forces, torques and stresslets. -/
theorem C45_table {z : PairScalars} {run : FCase → ℕ → ℝ} (hz : SolvesMobility z run) (hb : Balanced z)
    {tab : ℕ → ℝ} (h : XYZ_column run = some tab) {lam : ℝ} (hl : 0 < lam) {d : Fin 3 → ℝ}
    (hd : dotp d d = 1) {F T U O : Fin 2 → Fin 3 → ℝ} {E S : Fin 2 → Fin 3 → Fin 3 → ℝ}
    (hE : ∀ β, SymTraceless (E β)) (hm : Mobility z d F T E U O S) (x : Fin 2) (c : Comp) :
    let N := twoNear
      ![ofColumn fun k => generalColumn tab k 0, ofColumn fun k => reciprocalColumn (1 / lam) tab k 0]
      ![ofColumn fun k => generalColumn tab k 1, ofColumn fun k => reciprocalColumn (1 / lam) tab k 1]
      ![1, lam] d
    comps (F x) (T x) (S x) c = ∑ y, ((∑ j, N x y c (.f j) * U y j)
      + (∑ j, N x y c (.t j) * O y j) + ∑ q, N x y c (.s q) * five (E y) q) := by
  intro N
  unfold XYZ_column at h
  rw [C45_decode hz, Option.bind_eq_bind, Option.bind_eq_some_iff] at h
  obtain ⟨R, hR, h⟩ := h
  have hres := (C45_inverse hR hb.XA hb.YA hb.YC hd F T U O hE S).mp hm
  obtain ⟨g1, g2, g3, g4⟩ := columns_at (Option.some.inj h).symm hl
  have hN : ∀ y c2, N x y c c2 = full R d x y c c2 := fun y c2 =>
    twoNear_full (C45_balanced hR hb) hd g1 g2 g3 g4 x y c c2
  simp only [hN]
  exact resistance_comps hd hE hres x c

/-- **C45** (reciprocal columns). The columns for `lam` and `1 / lam` obey the reciprocal theorem that the
symmetry of the simulation's near-field matrix rests on. -/
theorem C45_reciprocal {z : PairScalars} {run : FCase → ℕ → ℝ} (hz : SolvesMobility z run) (hb : Balanced z)
    {tab : ℕ → ℝ} (h : XYZ_column run = some tab) {lam : ℝ} (hl : 0 < lam) :
    Reciprocal (ofColumn fun k => generalColumn tab k 1) (ofColumn fun k => reciprocalColumn (1 / lam) tab k 1)
      1 lam := by
  unfold XYZ_column at h
  rw [C45_decode hz, Option.bind_eq_bind, Option.bind_eq_some_iff] at h
  obtain ⟨R, hR, h⟩ := h
  obtain ⟨-, g2, -, g4⟩ := columns_at (Option.some.inj h).symm hl
  have hb := C45_balanced hR hb
  generalize (ofColumn fun k => generalColumn tab k 1) = u at g2 ⊢
  generalize (ofColumn fun k => reciprocalColumn (1 / lam) tab k 1) = v at g4 ⊢
  have hpi := Real.pi_pos
  simp only [dimS, flipS, PairScalars.at, Scalars.mk.injEq] at g2 g4
  obtain ⟨a1, a2, a3, a4, a5, a6, a7, a8, a9, a10, a11⟩ := g2
  obtain ⟨b1, b2, b3, b4, b5, b6, b7, b8, b9, b10, b11⟩ := g4
  rw [hb.XA] at a1
  rw [hb.YA] at a2
  rw [hb.XC] at a4
  rw [hb.YC] at a5
  rw [hb.XM] at a9
  rw [hb.YM] at a10
  rw [hb.ZM] at a11
  constructor <;> refine mul_left_cancel₀ hpi.ne' ?_ <;> linarith

/-! ## Examples -/

/-- The mobility problem has a solution for all loads, so a program that solves it exists. -/
theorem mobility_exists (z : PairScalars) (d : Fin 3 → ℝ) (F T : Fin 2 → Fin 3 → ℝ)
    (E : Fin 2 → Fin 3 → Fin 3 → ℝ) : ∃ U O S, Mobility z d F T E U O S :=
  ⟨_, _, _, fun _ _ => rfl, fun _ _ => rfl, fun _ _ _ => rfl⟩

theorem solver_exists (z : PairScalars) : ∃ run, SolvesMobility z run := by
  choose U O S h using fun c => mobility_exists z ![1, 0, 0] (caseForce c) (caseTorque c) (caseStrain c)
  exact ⟨fun c i => (short (U c) (O c) (S c)).getD i 0, fun c => ⟨U c, O c, S c, h c, fun _ _ => rfl⟩⟩

/-- Scalars with all couplings present. -/
def demoZ : PairScalars where
  XA := quad 3 1 1 2
  YA := quad 3 1 1 3
  YB := quad 1 0 0 1
  XC := quad 2 1 1 2
  YC := quad 3 1 1 3
  XG := quad 1 2 3 4
  YG := quad 5 6 7 8
  YH := quad 1 (-1) 2 (-2)
  XM := quad 4 1 1 4
  YM := quad 5 1 1 5
  ZM := quad 6 1 1 6

theorem demoZ_balanced : Balanced demoZ := ⟨rfl, rfl, rfl, rfl, rfl, rfl, rfl⟩

theorem demoZ_converts : ∃ R, convert_dim_kim_mobility_to_dim_resistance demoZ = some R := by
  rw [← Option.ne_none_iff_exists', Ne, C45_fails]
  have h : (matrix_yabc demoZ).det = 45 := by
    simp [matrix_yabc, demoZ, quad, Matrix.det_succ_row_zero, Fin.sum_univ_succ, Fin.succAbove]
    norm_num
  rw [h, Matrix.det_fin_two, Matrix.det_fin_two]
  simp [mat2, demoZ, quad]
  norm_num

/-- A sphere of radius 1 and one of radius 2, about an oblique axis, with forces, torques and a shear. -/
example : ∃ run tab, SolvesMobility demoZ run ∧ XYZ_column run = some tab ∧
    ∃ U O S, Mobility demoZ ![3 / 5, 0, 4 / 5] ![![1, 2, 3], ![0, 0, -1]] ![![0, 1, 0], ![2, 0, 0]]
      (caseStrain .E14) U O S ∧ ∀ x c,
      comps (![![1, 2, 3], ![0, 0, -1]] x) (![![0, 1, 0], ![2, 0, 0]] x) (S x) c =
        let N := twoNear
          ![ofColumn fun k => generalColumn tab k 0, ofColumn fun k => reciprocalColumn (1 / 2) tab k 0]
          ![ofColumn fun k => generalColumn tab k 1, ofColumn fun k => reciprocalColumn (1 / 2) tab k 1]
          ![1, 2] ![3 / 5, 0, 4 / 5]
        ∑ y, ((∑ j, N x y c (.f j) * U y j) + (∑ j, N x y c (.t j) * O y j)
          + ∑ q, N x y c (.s q) * five (caseStrain .E14 y) q) := by
  obtain ⟨run, hrun⟩ := solver_exists demoZ
  obtain ⟨R, hR⟩ := demoZ_converts
  have ht : XYZ_column run = some (nondimensionalise_scalars R.toList resistance_scales) := by
    unfold XYZ_column
    rw [C45_decode hrun, hR]
    rfl
  obtain ⟨U, O, S, hm⟩ := mobility_exists demoZ ![3 / 5, 0, 4 / 5] ![![1, 2, 3], ![0, 0, -1]]
    ![![0, 1, 0], ![2, 0, 0]] (caseStrain .E14)
  exact ⟨run, _, hrun, ht, U, O, S, hm, fun x c => C45_table hrun demoZ_balanced ht (by norm_num)
    (by simp [dotp]; norm_num) (caseStrain_symm _) hm x c⟩

end SD
