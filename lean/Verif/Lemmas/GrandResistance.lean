import Verif.Model.GrandResistance
import Verif.Lemmas.Viscosity
import Verif.Lemmas.NearSystem
import Verif.Lemmas.CodePivot

/-!
# Inverting and adding the far- and near-field matrices
-/

set_option autoImplicit false

namespace SD

open Spec

theorem Minfinity_dims (P : PosData) (mu : ℝ) (bb : Bool) :
    (generate_Minfinity P mu bb).rows = side P ∧ (generate_Minfinity P mu bb).cols = side P := by
  unfold generate_Minfinity side
  dsimp only
  split_ifs
  · exact ⟨rfl, rfl⟩
  · exact loop_dims P _ mu bb (NDMat.zeros _ _)

theorem Minfinity_symm (P : PosData) (mu : ℝ) (bb : Bool) (i j : ℕ) :
    (generate_Minfinity P mu bb).get i j = (generate_Minfinity P mu bb).get j i := by
  unfold generate_Minfinity
  dsimp only
  split_ifs
  · exact dot_dot_symm _ _ (11 * P.Ns + 6 * P.Nd) ⟨rfl, rfl⟩ (loop_dims P _ mu bb (NDMat.zeros _ _))
      (loop_symm P _ mu bb _) i j
  · exact loop_symm P _ mu bb _ i j

/-- `inv` succeeds exactly for square matrices without null vectors. -/
theorem inv_isSome {M : NDMat} (hsq : M.rows = M.cols) :
    (∃ B, M.inv = some B) ↔ ∀ v : ℕ → ℝ, (∀ i < M.rows, mulVec M.rows M.get v i = 0) →
      ∀ i < M.rows, v i = 0 := by
  constructor
  · rintro ⟨B, h⟩ v hv i hi
    obtain ⟨-, -, -, hl, -⟩ := NDMat.inv_some h
    have : ∑ r ∈ Finset.range M.rows, B.get i r * mulVec M.rows M.get v r = v i := by
      unfold mulVec
      simp only [Finset.mul_sum]
      rw [Finset.sum_comm]
      have e : ∀ q ∈ Finset.range M.rows, ∑ r ∈ Finset.range M.rows, B.get i r * (M.get r q * v q)
          = if i = q then v q else 0 := by
        intro q hq
        have := hl i hi q (Finset.mem_range.mp hq)
        simp only [← mul_assoc]
        rw [← Finset.sum_mul, this]
        split_ifs <;> simp
      rw [Finset.sum_congr rfl e, Finset.sum_ite_eq]
      simp [hi]
    rw [← this]
    exact Finset.sum_eq_zero fun r hr => by rw [hv r (Finset.mem_range.mp hr), mul_zero]
  · intro h
    unfold NDMat.inv
    rw [if_pos]
    · exact ⟨_, rfl⟩
    refine ⟨hsq, fun hdet => ?_⟩
    obtain ⟨v, hv0, hv⟩ := Matrix.exists_mulVec_eq_zero_iff.mpr hdet
    apply hv0
    funext i
    have := h (fun i => if h : i < M.rows then v ⟨i, h⟩ else 0) (fun i hi => ?_) i i.2
    · simpa using this
    · have e := congrFun hv ⟨i, hi⟩
      rw [Matrix.mulVec, Pi.zero_apply] at e
      unfold mulVec
      rw [← e, Finset.sum_range]
      refine Finset.sum_congr rfl fun j _ => ?_
      simp [NDMat.toMatrix]

theorem inv_mulVec {M B : NDMat} (h : M.inv = some B) (v : ℕ → ℝ) {i : ℕ} (hi : i < M.rows) :
    mulVec M.rows B.get (mulVec M.rows M.get v) i = v i ∧
    mulVec M.rows M.get (mulVec M.rows B.get v) i = v i := by
  obtain ⟨-, -, -, hl, hr⟩ := NDMat.inv_some h
  have key : ∀ X Y : NDMat, (∀ p < M.rows, ∀ q < M.rows,
      ∑ r ∈ Finset.range M.rows, X.get p r * Y.get r q = if p = q then 1 else 0) →
      mulVec M.rows X.get (mulVec M.rows Y.get v) i = v i := by
    intro X Y hl
    unfold mulVec
    simp only [Finset.mul_sum]
    rw [Finset.sum_comm]
    have e : ∀ q ∈ Finset.range M.rows, ∑ r ∈ Finset.range M.rows, X.get i r * (Y.get r q * v q)
        = if i = q then v q else 0 := by
      intro q hq
      have := hl i hi q (Finset.mem_range.mp hq)
      simp only [← mul_assoc]
      rw [← Finset.sum_mul, this]
      split_ifs <;> simp
    rw [Finset.sum_congr rfl e, Finset.sum_ite_eq]
    simp [hi]
  exact ⟨key B M hl, key M B hr⟩

theorem inv_symm {M B : NDMat} (h : M.inv = some B) (hM : ∀ i j, M.get i j = M.get j i) (i j : ℕ) :
    B.get i j = B.get j i := by
  unfold NDMat.inv at h
  split_ifs at h with hc
  obtain rfl := Option.some.inj h
  have ht : M.toMatrix.transpose = M.toMatrix := by
    ext a b; exact hM b a
  have hi : (M.toMatrix⁻¹).transpose = M.toMatrix⁻¹ := by rw [Matrix.transpose_nonsing_inv, ht]
  dsimp only
  by_cases hij : i < M.rows ∧ j < M.rows
  · rw [dif_pos hij, dif_pos hij.symm]
    exact congrFun (congrFun hi ⟨j, hij.2⟩) ⟨i, hij.1⟩ |>.symm ▸ rfl
  · rw [dif_neg hij, dif_neg (fun h => hij h.symm)]

theorem inv_smul' (M : NDMat) {k : ℝ} (hk : k ≠ 0) :
    (NDMat.smul k⁻¹ M).inv = M.inv.map (NDMat.smul k) := by
  have hm : (NDMat.smul k⁻¹ M).toMatrix = (k⁻¹ : ℝ) • M.toMatrix := rfl
  have hd : (NDMat.smul k⁻¹ M).toMatrix.det = (k⁻¹) ^ M.rows * M.toMatrix.det := by
    rw [hm]; exact (Matrix.det_smul M.toMatrix k⁻¹).trans (by rw [Fintype.card_fin])
  unfold NDMat.inv
  by_cases h : M.rows = M.cols ∧ M.toMatrix.det ≠ 0
  · have h' : (NDMat.smul k⁻¹ M).rows = (NDMat.smul k⁻¹ M).cols ∧
        (NDMat.smul k⁻¹ M).toMatrix.det ≠ 0 := by
      refine ⟨h.1, ?_⟩
      rw [hd]
      exact mul_ne_zero (pow_ne_zero _ (inv_ne_zero hk)) h.2
    rw [if_pos h, if_pos h', Option.map_some]
    congr 1
    simp only [NDMat.smul, NDMat.mk.injEq, true_and]
    funext i j
    have hi : (NDMat.smul k⁻¹ M).toMatrix⁻¹ = k • M.toMatrix⁻¹ := by
      refine Matrix.inv_eq_right_inv ?_
      rw [hm]
      refine (Matrix.smul_mul k⁻¹ M.toMatrix (k • M.toMatrix⁻¹)).trans ?_
      rw [Matrix.mul_smul, Matrix.mul_nonsing_inv _ (Ne.isUnit h.2), smul_smul, inv_mul_cancel₀ hk,
        one_smul]
      rfl
    by_cases hij : i < M.rows ∧ j < M.rows
    · refine (dif_pos hij).trans ?_
      rw [dif_pos hij]
      exact congrFun (congrFun hi ⟨i, hij.1⟩) ⟨j, hij.2⟩
    · refine (dif_neg hij).trans ?_
      rw [dif_neg hij, mul_zero]
  · have h' : ¬ ((NDMat.smul k⁻¹ M).rows = (NDMat.smul k⁻¹ M).cols ∧
        (NDMat.smul k⁻¹ M).toMatrix.det ≠ 0) := by
      rintro ⟨h1, h2⟩
      refine h ⟨h1, fun h0 => h2 ?_⟩
      rw [hd, h0, mul_zero]
    rw [if_neg h, if_neg h', Option.map_none]

theorem solve_smul (M : NDMat) {k : ℝ} (hk : k ≠ 0) (f : List ℝ) :
    (NDMat.smul k M).solve f = (M.solve f).map (List.map (· / k)) := by
  have hm : (NDMat.smul k M).toMatrix = k • M.toMatrix := rfl
  have hd : (NDMat.smul k M).toMatrix.det = k ^ M.rows * M.toMatrix.det := by
    rw [hm]; exact (Matrix.det_smul M.toMatrix k).trans (by rw [Fintype.card_fin])
  unfold NDMat.solve
  by_cases h : M.rows = M.cols ∧ f.length = M.rows ∧ M.toMatrix.det ≠ 0
  · have h' : (NDMat.smul k M).rows = (NDMat.smul k M).cols ∧ f.length = (NDMat.smul k M).rows ∧
        (NDMat.smul k M).toMatrix.det ≠ 0 := by
      refine ⟨h.1, h.2.1, ?_⟩
      rw [hd]
      exact mul_ne_zero (pow_ne_zero _ hk) h.2.2
    rw [if_pos h, if_pos h', Option.map_some]
    congr 1
    have hi : (NDMat.smul k M).toMatrix⁻¹ = k⁻¹ • M.toMatrix⁻¹ := by
      refine Matrix.inv_eq_right_inv ?_
      rw [hm]
      refine (Matrix.smul_mul k M.toMatrix (k⁻¹ • M.toMatrix⁻¹)).trans ?_
      rw [Matrix.mul_smul, Matrix.mul_nonsing_inv _ (Ne.isUnit h.2.2), smul_smul, mul_inv_cancel₀ hk,
        one_smul]
      rfl
    rw [hi, List.map_ofFn]
    congr 1
    funext i
    have := congrFun (Matrix.smul_mulVec k⁻¹ M.toMatrix⁻¹ (fun i => f.getD i 0)) i
    refine Eq.trans this ?_
    simp only [Function.comp]
    rw [div_eq_inv_mul]
    rfl
  · have h' : ¬ ((NDMat.smul k M).rows = (NDMat.smul k M).cols ∧ f.length = (NDMat.smul k M).rows ∧
        (NDMat.smul k M).toMatrix.det ≠ 0) := by
      rintro ⟨h1, h2, h3⟩
      refine h ⟨h1, h2, fun h0 => h3 ?_⟩
      rw [hd, h0, mul_zero]
    rw [if_neg h, if_neg h', Option.map_none]

theorem smul_smul_mat (a b : ℝ) (M : NDMat) : NDMat.smul a (NDMat.smul b M) = NDMat.smul (a * b) M := by
  simp only [NDMat.smul, NDMat.mk.injEq, true_and]
  funext i j
  ring

theorem R2B_visc (T : ScalarTable) (P : PosData) (k c mu : ℝ) (bb : Bool) :
    generate_R2Bexact T P c (k * mu) bb = (generate_R2Bexact T P c mu bb).map (NDMat.smul k) := by
  unfold generate_R2Bexact R2BexactOfPairs
  dsimp only
  rcases generate_R2Bexact_loop T _ P.Ns P.Nd P.beadSize bb _ with _ | M
  · rfl
  · rw [Option.bind_eq_bind, Option.bind_some, Option.bind_some]
    split_ifs
    · rw [Option.map_some, smul_smul_mat]
    · rw [Option.map_some, smul_smul_mat]

theorem smul_add_mat (k : ℝ) (A B : NDMat) :
    (NDMat.smul k A).add (NDMat.smul k B) = NDMat.smul k (A.add B) := by
  simp only [NDMat.smul, NDMat.add, NDMat.mk.injEq, true_and]
  funext i j
  ring

theorem grand_visc (T : ScalarTable) (P : PosData) (last : NDMat) (reg : Bool) (c : ℝ) (drag only : Bool)
    {k : ℝ} (hk : k ≠ 0) (mu : ℝ) (bb : Bool) :
    generate_grand_resistance_matrix T P (NDMat.smul k last) reg c drag only (k * mu) bb
      = (generate_grand_resistance_matrix T P last reg c drag only mu bb).map
          fun x => (NDMat.smul k x.1, NDMat.smul k x.2) := by
  unfold generate_grand_resistance_matrix
  have e : (if drag = false then
        if reg then (generate_Minfinity P (k * mu) bb).inv else some (NDMat.smul k last)
      else some (NDMat.smul (k * mu) (npDiag (dragDiagonal P))))
      = (if drag = false then
        if reg then (generate_Minfinity P mu bb).inv else some last
      else some (NDMat.smul mu (npDiag (dragDiagonal P)))).map (NDMat.smul k) := by
    cases drag <;> cases reg
    · rfl
    · rw [Minfinity_visc]
      exact inv_smul' _ hk
    · simp [smul_smul_mat]
    · simp [smul_smul_mat]
  rw [e]
  generalize (if drag = false then
        if reg then (generate_Minfinity P mu bb).inv else some last
      else some (NDMat.smul mu (npDiag (dragDiagonal P)))) = C
  rcases C with _ | C
  · rfl
  · rw [Option.map_some, Option.bind_eq_bind, Option.bind_some, Option.bind_some]
    cases only
    · rw [if_pos rfl, if_pos rfl, R2B_visc]
      rcases generate_R2Bexact T P c mu bb with _ | N
      · rfl
      · rw [Option.map_some, Option.bind_some, Option.bind_some, Option.map_some, smul_add_mat]
    · rfl

end SD
