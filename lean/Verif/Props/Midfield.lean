import Verif.Lemmas.TwoSphere

/-!
# From the Fortran program to the table of scalars (C45)
-/

set_option autoImplicit false

namespace SD

open Spec TwoSphere Matrix

theorem npInv_some {n : ℕ} {m q : Matrix (Fin n) (Fin n) ℝ} (h : npInv m = some q) :
    m * q = 1 ∧ q * m = 1 := by
  unfold npInv at h
  split_ifs at h with h0
  have h := Option.some.inj h
  have hu : IsUnit m.det := isUnit_iff_ne_zero.mpr h0
  subst h
  exact ⟨Matrix.mul_nonsing_inv _ hu, Matrix.nonsing_inv_mul _ hu⟩

theorem inv_symm_of_symm {n : ℕ} {m q : Matrix (Fin n) (Fin n) ℝ} (h1 : m * q = 1) (h2 : q * m = 1)
    (hs : mᵀ = m) : qᵀ = q := by
  have : qᵀ * m = 1 := by
    have := congrArg Matrix.transpose h1
    rwa [Matrix.transpose_mul, hs, Matrix.transpose_one] at this
  calc qᵀ = qᵀ * (m * q) := by rw [h1, Matrix.mul_one]
    _ = q := by rw [← Matrix.mul_assoc, this, Matrix.one_mul]

theorem lin_iff {n m : ℕ} {M Q : Matrix (Fin n) (Fin n) ℝ} (h1 : M * Q = 1) (h2 : Q * M = 1)
    (N : Matrix (Fin n) (Fin m) ℝ) (c : ℝ) (u f : Fin n → ℝ) (e : Fin m → ℝ) :
    u = M *ᵥ f - c • N *ᵥ e ↔ f = Q *ᵥ u + c • (Q * N) *ᵥ e := by
  constructor
  · rintro rfl
    rw [Matrix.mulVec_sub, Matrix.mulVec_mulVec, h2, Matrix.one_mulVec, Matrix.mulVec_smul,
      Matrix.mulVec_mulVec]
    abel
  · rintro rfl
    rw [Matrix.mulVec_add, Matrix.mulVec_mulVec, h1, Matrix.one_mulVec, Matrix.mulVec_smul,
      Matrix.mulVec_mulVec, ← Matrix.mul_assoc, h1, Matrix.one_mul]
    abel

theorem fin4 {p : Fin 4 → Prop} : (∀ i, p i) ↔ p 0 ∧ p 1 ∧ p 2 ∧ p 3 := by
  constructor
  · exact fun h => ⟨h 0, h 1, h 2, h 3⟩
  · rintro ⟨h0, h1, h2, h3⟩ i
    fin_cases i <;> assumption

theorem mat2_apply (m : Fin 2 → Fin 2 → ℝ) (i j : Fin 2) : mat2 m i j = m i j := by
  fin_cases i <;> fin_cases j <;> rfl

theorem fin2 {p : Fin 2 → Prop} : (∀ i, p i) ↔ p 0 ∧ p 1 := Fin.forall_fin_two

/-- Motion along the axis. -/
theorem mid_x {z : PairScalars} {XA : Matrix (Fin 2) (Fin 2) ℝ} (a1 : mat2 z.XA * XA = 1)
    (a2 : XA * mat2 z.XA = 1) (sA : XAᵀ = XA) (f u e : Fin 2 → ℝ) :
    ((∀ α, u α = ∑ β, (z.XA α β * f β + (-1) * (z.XG β α * e β))) ↔
      (∀ α, f α = ∑ β, (XA α β * u β + 1 * ((mat2 z.XG * XA) β α * e β)))) ∧
    ((∀ α, f α = ∑ β, (XA α β * u β + 1 * ((mat2 z.XG * XA) β α * e β))) → ∀ α,
      (∑ β, (z.XG α β * f β + 3 / 2 * (z.XM α β * e β)))
        = ∑ β, ((mat2 z.XG * XA) α β * u β
          + 3 / 2 * ((mat2 z.XM + (2 / 3 : ℝ) • (mat2 z.XG * XA * mat2t z.XG)) α β * e β))) := by
  have hX : (∀ α, u α = ∑ β, (z.XA α β * f β + (-1) * (z.XG β α * e β))) ↔
      u = mat2 z.XA *ᵥ f - (1 : ℝ) • mat2t z.XG *ᵥ e := by
    rw [funext_iff]
    refine forall_congr' fun α => ?_
    fin_cases α <;> simp [mat2, mat2t, Matrix.mulVec, dotProduct, Fin.sum_univ_two] <;>
      constructor <;> intro h <;> linarith
  have hXG : mat2t (mat2 z.XG * XA) = XA * mat2t z.XG := by
    have : mat2t (mat2 z.XG * XA) = (mat2 z.XG * XA)ᵀ := by
      ext i j; fin_cases i <;> fin_cases j <;> simp [mat2t]
    rw [this, Matrix.transpose_mul, sA]
    congr 1
    ext i j; fin_cases i <;> fin_cases j <;> simp [mat2, mat2t]
  have hX' : (∀ α, f α = ∑ β, (XA α β * u β + 1 * ((mat2 z.XG * XA) β α * e β))) ↔
      f = XA *ᵥ u + (1 : ℝ) • (XA * mat2t z.XG) *ᵥ e := by
    rw [funext_iff, ← hXG]
    refine forall_congr' fun α => ?_
    fin_cases α <;> simp only [mat2t, Matrix.mulVec, dotProduct, Fin.sum_univ_two, Pi.add_apply,
      Pi.smul_apply, smul_eq_mul, Matrix.of_apply, Matrix.cons_val', Matrix.cons_val_zero,
      Matrix.cons_val_one, Fin.zero_eta, Fin.mk_one, Matrix.cons_val_fin_one] <;>
      constructor <;> intro h <;> linarith
  refine ⟨hX.trans ((lin_iff a1 a2 _ _ _ _ _).trans hX'.symm), fun h α => ?_⟩
  have hf := hX'.mp h
  have key : mat2 z.XG *ᵥ f + (3 / 2 : ℝ) • mat2 z.XM *ᵥ e
      = (mat2 z.XG * XA) *ᵥ u + (3 / 2 : ℝ) •
        (mat2 z.XM + (2 / 3 : ℝ) • (mat2 z.XG * XA * mat2t z.XG)) *ᵥ e := by
    rw [hf, Matrix.mulVec_add, Matrix.mulVec_mulVec, one_smul, Matrix.mulVec_mulVec, Matrix.add_mulVec,
      Matrix.smul_mulVec, smul_add, smul_smul, ← Matrix.mul_assoc]
    norm_num
    abel
  have := congrFun key α
  simp only [Matrix.mulVec, dotProduct, Fin.sum_univ_two, Pi.add_apply, Pi.smul_apply, smul_eq_mul,
    mat2_apply] at this ⊢
  linarith

/-- Rotation about the axis. -/
theorem mid_c {m : Fin 2 → Fin 2 → ℝ} {XC : Matrix (Fin 2) (Fin 2) ℝ} (c1 : mat2 m * XC = 1)
    (c2 : XC * mat2 m = 1) (t w : Fin 2 → ℝ) :
    (∀ α, w α = ∑ β, m α β * t β) ↔ (∀ α, t α = ∑ β, XC α β * w β) := by
  have l : (∀ α, w α = ∑ β, m α β * t β) ↔
      w = mat2 m *ᵥ t - (0 : ℝ) • (0 : Matrix (Fin 2) (Fin 2) ℝ) *ᵥ 0 := by
    rw [funext_iff]
    refine forall_congr' fun α => ?_
    fin_cases α <;> simp [mat2, Matrix.mulVec, dotProduct, Fin.sum_univ_two]
  have r : (∀ α, t α = ∑ β, XC α β * w β) ↔
      t = XC *ᵥ w + (0 : ℝ) • (XC * (0 : Matrix (Fin 2) (Fin 2) ℝ)) *ᵥ 0 := by
    rw [funext_iff]
    refine forall_congr' fun α => ?_
    fin_cases α <;> simp [Matrix.mulVec, dotProduct, Fin.sum_univ_two]
  exact l.trans ((lin_iff c1 c2 _ _ _ _ _).trans r.symm)

/-- The vector of two forces and two torques. -/
def v4 (x y : Fin 2 → ℝ) : Fin 4 → ℝ := ![x 0, x 1, y 0, y 1]

theorem mid_y_left {z : PairScalars} (hYA : z.YA 0 1 = z.YA 1 0) (hYC : z.YC 0 1 = z.YC 1 0)
    (f t u w e : Fin 2 → ℝ) :
    ((∀ α, u α = ∑ β, (z.YA α β * f β + z.YB β α * t β + (-1) * (2 * (z.YG β α * e β)))) ∧
      (∀ α, w α = ∑ β, (z.YB α β * f β + z.YC α β * t β - (-1) * (2 * (z.YH β α * e β))))) ↔
    v4 u w = matrix_yabc z *ᵥ v4 f t - (2 : ℝ) • matrix_ygh z *ᵥ e := by
  rw [funext_iff, fin4, fin2, fin2]
  simp only [v4, matrix_yabc, matrix_ygh, Matrix.mulVec, dotProduct, Fin.sum_univ_two, Fin.sum_univ_four,
    Pi.sub_apply, Pi.smul_apply, smul_eq_mul, Matrix.of_apply, Matrix.cons_val', Matrix.cons_val_zero,
    Matrix.cons_val_one, Matrix.cons_val, Matrix.cons_val_fin_one, ← hYA, ← hYC]
  constructor
  · rintro ⟨⟨h1, h2⟩, h3, h4⟩; exact ⟨by linarith, by linarith, by linarith, by linarith⟩
  · rintro ⟨h1, h2, h3, h4⟩; exact ⟨⟨by linarith, by linarith⟩, by linarith, by linarith⟩

theorem mid_y_right {Q : Matrix (Fin 4) (Fin 4) ℝ} (hs : ∀ i j, Q i j = Q j i)
    (N : Matrix (Fin 4) (Fin 2) ℝ) (f t u w e : Fin 2 → ℝ) :
    ((∀ α, f α = ∑ β, (quad (Q 0 0) (Q 0 1) (Q 1 0) (Q 1 1) α β * u β
          + quad (Q 0 2) (Q 1 2) (Q 0 3) (Q 1 3) β α * w β
          + 1 * (2 * (quad (N 0 0) (N 1 0) (N 0 1) (N 1 1) β α * e β)))) ∧
      (∀ α, t α = ∑ β, (quad (Q 0 2) (Q 1 2) (Q 0 3) (Q 1 3) α β * u β
          + quad (Q 2 2) (Q 2 3) (Q 3 2) (Q 3 3) α β * w β
          - 1 * (2 * (quad (-N 2 0) (-N 3 0) (-N 2 1) (-N 3 1) β α * e β))))) ↔
    v4 f t = Q *ᵥ v4 u w + (2 : ℝ) • N *ᵥ e := by
  rw [funext_iff, fin4, fin2, fin2]
  simp only [v4, quad, Matrix.mulVec, dotProduct, Fin.sum_univ_two, Fin.sum_univ_four,
    Pi.add_apply, Pi.smul_apply, smul_eq_mul, Matrix.cons_val_zero,
    Matrix.cons_val_one, Matrix.cons_val, Matrix.cons_val_fin_one]
  rw [hs 2 0, hs 2 1, hs 3 0, hs 3 1, hs 3 2]
  constructor
  · rintro ⟨⟨h1, h2⟩, h3, h4⟩; exact ⟨by linarith, by linarith, by linarith, by linarith⟩
  · rintro ⟨h1, h2, h3, h4⟩; exact ⟨⟨by linarith, by linarith⟩, by linarith, by linarith⟩

theorem mid_y_stress {z : PairScalars} {Q : Matrix (Fin 4) (Fin 4) ℝ} (sQ : Qᵀ = Q)
    {N : Matrix (Fin 4) (Fin 2) ℝ} (hN : N = Q * matrix_ygh z) (f t u w e : Fin 2 → ℝ)
    (hf : v4 f t = Q *ᵥ v4 u w + (2 : ℝ) • N *ᵥ e) (α : Fin 2) :
    (∑ β, (z.YG α β * f β - z.YH α β * t β + z.YM α β * e β))
      = ∑ β, (quad (N 0 0) (N 1 0) (N 0 1) (N 1 1) α β * u β
          - quad (-N 2 0) (-N 3 0) (-N 2 1) (-N 3 1) α β * w β
          + (mat2 z.YM + (2 : ℝ) • (mat2 (quad (N 0 0) (N 1 0) (N 0 1) (N 1 1)) * mat2t z.YG
            + mat2 (quad (-N 2 0) (-N 3 0) (-N 2 1) (-N 3 1)) * mat2t z.YH)) α β * e β) := by
  have hNt : (matrix_ygh z)ᵀ * Q = Nᵀ := by rw [hN, Matrix.transpose_mul, sQ]
  have hYM : mat2 (quad (N 0 0) (N 1 0) (N 0 1) (N 1 1)) * mat2t z.YG
      + mat2 (quad (-N 2 0) (-N 3 0) (-N 2 1) (-N 3 1)) * mat2t z.YH = Nᵀ * matrix_ygh z := by
    ext i j
    simp only [Matrix.add_apply, Matrix.mul_apply, Fin.sum_univ_two, Fin.sum_univ_four, Matrix.transpose_apply,
      mat2_apply]
    fin_cases i <;> fin_cases j <;> simp [quad, mat2t, matrix_ygh] <;> ring
  have key : (matrix_ygh z)ᵀ *ᵥ v4 f t + mat2 z.YM *ᵥ e
      = Nᵀ *ᵥ v4 u w + (mat2 z.YM + (2 : ℝ) • (Nᵀ * matrix_ygh z)) *ᵥ e := by
    have h2 : (matrix_ygh z)ᵀ * N = Nᵀ * matrix_ygh z := by
      conv_lhs => rw [hN, ← Matrix.mul_assoc, hNt]
    rw [hf, Matrix.mulVec_add, Matrix.mulVec_mulVec, hNt, Matrix.mulVec_smul, Matrix.mulVec_mulVec,
      Matrix.add_mulVec, Matrix.smul_mulVec, h2]
    abel
  have := congrFun key α
  rw [hYM]
  generalize Nᵀ * matrix_ygh z = K at this ⊢
  fin_cases α <;>
  · simp [Matrix.mulVec, dotProduct, Fin.sum_univ_two, Fin.sum_univ_four, v4, matrix_ygh, quad,
      mat2] at this ⊢
    linarith

/-- **C45**. The midfield conversion inverts the two-sphere problem: if it succeeds, then for every axis, the
forces, torques, strain rates, velocities, angular velocities and stresslets that satisfy the mobility
relation with the given scalars are exactly those that satisfy the resistance relation with the converted
scalars. The given scalars must obey the reciprocal theorem in three places. -/
theorem C45_inverse {z R : PairScalars} (h : convert_dim_kim_mobility_to_dim_resistance z = some R)
    (hXA : z.XA 0 1 = z.XA 1 0) (hYA : z.YA 0 1 = z.YA 1 0) (hYC : z.YC 0 1 = z.YC 1 0)
    {d : Fin 3 → ℝ} (hd : dotp d d = 1) (F T U O : Fin 2 → Fin 3 → ℝ) {E : Fin 2 → Fin 3 → Fin 3 → ℝ}
    (hE : ∀ β, SymTraceless (E β)) (S : Fin 2 → Fin 3 → Fin 3 → ℝ) :
    Mobility z d F T E U O S ↔ Resistance R d U O E F T S := by
  unfold convert_dim_kim_mobility_to_dim_resistance at h
  simp only [Option.bind_eq_bind, Option.bind_eq_some_iff] at h
  obtain ⟨XA, hxa, XC, hxc, Q, hq, h⟩ := h
  replace h := Option.some.inj h
  obtain ⟨a1, a2⟩ := npInv_some hxa
  obtain ⟨c1, c2⟩ := npInv_some hxc
  obtain ⟨q1, q2⟩ := npInv_some hq
  have sA : XAᵀ = XA := inv_symm_of_symm a1 a2 (by
    ext i j; fin_cases i <;> fin_cases j <;> simp [mat2, hXA])
  have sQ : Qᵀ = Q := inv_symm_of_symm q1 q2 (by
    ext i j; fin_cases i <;> fin_cases j <;> simp [matrix_yabc])
  subst h
  unfold Mobility Resistance
  rw [coupled_iff hd hE, coupled_iff hd hE]
  have hx := mid_x a1 a2 sA (fun β => par d (F β)) (fun β => par d (U β)) (fun β => par d (app (E β) d))
  have hy := fun i => mid_y_left hYA hYC (fun β => per d (F β) i) (fun β => cross d (T β) i)
    (fun β => per d (U β) i) (fun β => cross d (O β) i) (fun β => per d (app (E β) d) i)
  have hy' := fun i => mid_y_right (fun i j => congrFun (congrFun sQ j) i) (Q * matrix_ygh z)
    (fun β => per d (F β) i) (fun β => cross d (T β) i)
    (fun β => per d (U β) i) (fun β => cross d (O β) i) (fun β => per d (app (E β) d) i)
  have hyy := fun i => (hy i).trans ((lin_iff q1 q2 _ _ _ _ _).trans (hy' i).symm)
  have fin : ∀ {P1 P2 P3 P4 P5 Q1 Q2 Q3 Q4 Q5 : Prop}, (P1 ↔ Q1) → (P3 ↔ Q3) → (P2 ∧ P4 ↔ Q2 ∧ Q4) →
      (Q1 → Q2 ∧ Q4 → (P5 ↔ Q5)) → ((P1 ∧ P2) ∧ (P3 ∧ P4) ∧ P5 ↔ (Q1 ∧ Q2) ∧ (Q3 ∧ Q4) ∧ Q5) := by
    intros; tauto
  refine fin hx.1 (mid_c c1 c2 (fun β => par d (T β)) (fun β => par d (O β))) ?_ ?_
  · rw [← forall_and, ← forall_and]
    exact forall_congr' hyy
  · intro h1 h2
    refine forall_congr' fun α => forall_congr' fun i => forall_congr' fun j => ?_
    have g1 := hx.2 h1 α
    have g2 := fun i => mid_y_stress sQ rfl _ _ _ _ _ ((hy' i).mp ⟨h2.1 i, h2.2 i⟩) α
    have g3 := g2 i
    have g4 := g2 j
    rw [g1, g3, g4]

theorem reordered_eq (out : ℕ → ℝ) :
    reorderedUOS out 0 = out 0 ∧ reorderedUOS out 1 = out 1 ∧ reorderedUOS out 3 = out 11 ∧
    reorderedUOS out 4 = out 12 ∧ reorderedUOS out 6 = out 3 ∧ reorderedUOS out 7 = out 4 ∧
    reorderedUOS out 8 = out 5 ∧ reorderedUOS out 9 = out 14 ∧ reorderedUOS out 10 = out 15 ∧
    reorderedUOS out 11 = out 16 ∧ reorderedUOS out 12 = rp * out 6 + rm * out 7 ∧
    reorderedUOS out 13 = r2 * out 8 ∧ reorderedUOS out 15 = r2 * out 9 ∧
    reorderedUOS out 16 = r2 * out 10 ∧ reorderedUOS out 17 = rp * out 17 + rm * out 18 ∧
    reorderedUOS out 18 = r2 * out 19 ∧ reorderedUOS out 20 = r2 * out 20 ∧
    reorderedUOS out 21 = r2 * out 21 := by
  refine ⟨?_, ?_, ?_, ?_, ?_, ?_, ?_, ?_, ?_, ?_, ?_, ?_, ?_, ?_, ?_, ?_, ?_, ?_⟩ <;>
    simp [reorderedUOS, reorder, Finset.sum_range_succ]

theorem caseStrain_symm (c : FCase) (β : Fin 2) : SymTraceless (caseStrain c β) := by
  constructor
  · intro i j
    cases c <;> fin_cases β <;> fin_cases i <;> fin_cases j <;> simp [caseStrain]
  · cases c <;> fin_cases β <;> simp [caseStrain] <;> norm_num

set_option maxHeartbeats 1000000 in
/-- **C45** (decoding). If the Fortran program solves the mobility problem with the scalars `z`, then the 44 numbers
the script picks from its 14 answers are exactly `z`. -/
theorem C45_decode {z : PairScalars} {run : FCase → ℕ → ℝ} (h : SolvesMobility z run) :
    find_dim_kim_mobility_scalars run = z := by
  choose U O S hm hr using h
  have g : ∀ c, run c 0 = U c 0 0 ∧ run c 1 = U c 0 1 ∧ run c 3 = O c 0 0 ∧ run c 4 = O c 0 1 ∧
      run c 5 = O c 0 2 ∧ run c 6 = S c 0 0 0 ∧ run c 7 = S c 0 1 1 ∧ run c 8 = S c 0 0 1 ∧
      run c 9 = S c 0 0 2 ∧ run c 10 = S c 0 1 2 ∧ run c 11 = U c 1 0 ∧ run c 12 = U c 1 1 ∧
      run c 14 = O c 1 0 ∧ run c 15 = O c 1 1 ∧ run c 16 = O c 1 2 ∧ run c 17 = S c 1 0 0 ∧
      run c 18 = S c 1 1 1 ∧ run c 19 = S c 1 0 1 ∧ run c 20 = S c 1 0 2 ∧ run c 21 = S c 1 1 2 := by
    intro c
    refine ⟨?_, ?_, ?_, ?_, ?_, ?_, ?_, ?_, ?_, ?_, ?_, ?_, ?_, ?_, ?_, ?_, ?_, ?_, ?_, ?_⟩ <;>
      rw [hr c _ (by norm_num)] <;> rfl
  have h3 : Real.sqrt 3 ^ 2 = 3 := Real.sq_sqrt (by norm_num)
  have h3p : 0 < Real.sqrt 3 := Real.sqrt_pos.mpr (by norm_num)
  have h2p : 0 < Real.sqrt 2 := Real.sqrt_pos.mpr (by norm_num)
  have f1 := fun c α i => (hm c).first α i
  have f2 := fun c α i => (hm c).second α i
  have f3 := fun c α i j => (hm c).third α i j
  simp only [kkA_app, kkB_app, kkB_tr, kkG_app, kkH_app, kkG_tr _ _ _ (caseStrain_symm _ _),
    kkH_tr _ _ (caseStrain_symm _ _), kkM_app _ _ _ _ (caseStrain_symm _ _)] at f1 f2 f3
  have q := fun c => reordered_eq (run c)
  apply PairScalars.ext <;> funext α β <;> fin_cases α <;> fin_cases β <;>
    simp only [find_dim_kim_mobility_scalars, quad, q, g, f1, f2, f3, Fin.sum_univ_two] <;>
    simp [par, per, zz, app, dotp, cross0, cross1, cross2, dlt, caseForce, caseTorque, caseStrain,
      rp, rm, r2] <;>
    field_simp <;> ring_nf

/-- **C45** (failure). The conversion stops exactly if one of the three matrices is singular. -/
theorem C45_fails (z : PairScalars) : convert_dim_kim_mobility_to_dim_resistance z = none ↔
    (mat2 z.XA).det = 0 ∨ (mat2 z.XC).det = 0 ∨ (matrix_yabc z).det = 0 := by
  unfold convert_dim_kim_mobility_to_dim_resistance npInv
  by_cases h1 : (mat2 z.XA).det = 0 <;> by_cases h2 : (mat2 z.XC).det = 0 <;>
    by_cases h3 : (matrix_yabc z).det = 0 <;> simp [h1, h2, h3]

/-- **C45** (ignored entries). `y21a` and `y21c` are never read: with scalars that violate the reciprocal theorem
the result cannot be the inverse. -/
theorem C45_ignored (z : PairScalars) (a c : ℝ) :
    convert_dim_kim_mobility_to_dim_resistance { z with
      YA := quad (z.YA 0 0) (z.YA 0 1) a (z.YA 1 1), YC := quad (z.YC 0 0) (z.YC 0 1) c (z.YC 1 1) }
      = convert_dim_kim_mobility_to_dim_resistance z := rfl

end SD
