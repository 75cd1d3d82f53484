import Verif.Spec.System
import Verif.Lemmas.MinfEntry
import Verif.Lemmas.Dumbbell

/-!
# Consequences of the entry formula for whole configurations
-/

set_option autoImplicit false

namespace SD

open Spec

theorem beadPos_eq (P : PosData) : P.beadPos = centre P := by
  funext u i
  simp only [PosData.beadPos, centre]
  split_ifs
  · rfl
  · simp only [Pi.sub_apply, Pi.smul_apply, smul_eq_mul]; ring
  · rw [Nat.sub_sub]; simp only [Pi.add_apply, Pi.smul_apply, smul_eq_mul]; ring

theorem beadSize_eq (P : PosData) : P.beadSize = radius P := by
  funext u
  simp only [PosData.beadSize, radius, Nat.sub_sub]

theorem entry_of_sensible {P : PosData} (hP : Sensible P) (mu : ℝ) (bb : Bool) {x y : ℕ}
    {c1 c2 : Comp} (hx : HasRow P.Ns P.Nd x c1) (hy : HasRow P.Ns P.Nd y c2) (n m : ℕ) :
    (generate_Minfinity_loop (NDMat.zeros n m) P (1 / (8 * Real.pi * mu)) mu bb).get
      (row P.Ns x c1) (row P.Ns y c2)
    = systemMob P.Ns bb (centre P) (radius P) mu x c1 y c2 := by
  rw [← beadPos_eq, ← beadSize_eq]
  apply minf_entry P mu bb _ _ hx hy
  · intro x hx; rw [beadSize_eq]; exact hP.radius_pos x hx
  · intro x hx y hy e; rw [beadPos_eq]; exact hP.apart x hx y hy e

/-- The pair loop only looks at sizes and differences of positions. -/
theorem minfStep_congr {P P' : PosData} (h1 : P'.Ns = P.Ns) (h2 : P'.Nd = P.Nd)
    (h3 : P'.beadSize = P.beadSize)
    (h4 : ∀ x y, P'.beadPos x - P'.beadPos y = P.beadPos x - P.beadPos y) (c mu : ℝ) (bb : Bool) :
    minfStep P' c mu bb = minfStep P c mu bb := by
  funext D uv
  unfold minfStep
  dsimp only
  rw [h1, h2, h3, h4]

theorem loop_congr {P P' : PosData} (h1 : P'.Ns = P.Ns) (h2 : P'.Nd = P.Nd)
    (h3 : P'.beadSize = P.beadSize)
    (h4 : ∀ x y, P'.beadPos x - P'.beadPos y = P.beadPos x - P.beadPos y) (c mu : ℝ) (bb : Bool)
    (D : NDMat) : generate_Minfinity_loop D P' c mu bb = generate_Minfinity_loop D P c mu bb := by
  unfold generate_Minfinity_loop
  rw [minfStep_congr h1 h2 h3 h4, h1, h2]

theorem Minfinity_congr {P P' : PosData} (h1 : P'.Ns = P.Ns) (h2 : P'.Nd = P.Nd)
    (h3 : P'.beadSize = P.beadSize)
    (h4 : ∀ x y, P'.beadPos x - P'.beadPos y = P.beadPos x - P.beadPos y) (mu : ℝ) (bb : Bool) :
    generate_Minfinity P' mu bb = generate_Minfinity P mu bb := by
  unfold generate_Minfinity
  simp only [loop_congr h1 h2 h3 h4, h1, h2]

theorem foldl_dims {α : Type} (f : NDMat → α → NDMat) (hf : ∀ D a, (f D a).rows = D.rows ∧
    (f D a).cols = D.cols) (l : List α) (D : NDMat) :
    (l.foldl f D).rows = D.rows ∧ (l.foldl f D).cols = D.cols := by
  induction l generalizing D with
  | nil => exact ⟨rfl, rfl⟩
  | cons a l ih =>
    rw [List.foldl_cons]
    exact ⟨(ih _).1.trans (hf D a).1, (ih _).2.trans (hf D a).2⟩

theorem minfStep_dims (P : PosData) (c mu : ℝ) (bb : Bool) (D : NDMat) (uv : ℕ × ℕ) :
    (minfStep P c mu bb D uv).rows = D.rows ∧ (minfStep P c mu bb D uv).cols = D.cols := by
  have w : ∀ (D : NDMat) rc h w f, (writeAt D rc h w f).rows = D.rows ∧
      (writeAt D rc h w f).cols = D.cols := fun _ _ _ _ _ => ⟨rfl, rfl⟩
  unfold minfStep minfSphereSphere minfSphereBead
  dsimp only
  have wr : ∀ (D : NDMat) rc h w f, (writeAt D rc h w f).rows = D.rows := fun _ _ _ _ _ => rfl
  have wc : ∀ (D : NDMat) rc h w f, (writeAt D rc h w f).cols = D.cols := fun _ _ _ _ _ => rfl
  have ite_r : ∀ (p : Prop) [Decidable p] (A B : NDMat),
      (if p then A else B).rows = if p then A.rows else B.rows := by intros; split_ifs <;> rfl
  have ite_c : ∀ (p : Prop) [Decidable p] (A B : NDMat),
      (if p then A else B).cols = if p then A.cols else B.cols := by intros; split_ifs <;> rfl
  have fr : ∀ (l : List ℕ) (f : NDMat → ℕ → NDMat) (D : NDMat), (∀ D a, (f D a).rows = D.rows) →
      (l.foldl f D).rows = D.rows := by
    intro l f D hf
    induction l generalizing D with
    | nil => rfl
    | cons a l ih => rw [List.foldl_cons, ih, hf]
  have fc : ∀ (l : List ℕ) (f : NDMat → ℕ → NDMat) (D : NDMat), (∀ D a, (f D a).cols = D.cols) →
      (l.foldl f D).cols = D.cols := by
    intro l f D hf
    induction l generalizing D with
    | nil => rfl
    | cons a l ih => rw [List.foldl_cons, ih, hf]
  constructor
  · simp only [ite_r, wr, fr, ite_self, implies_true]
  · simp only [ite_c, wc, fc, ite_self, implies_true]

theorem loop_dims (P : PosData) (c mu : ℝ) (bb : Bool) (D : NDMat) :
    (generate_Minfinity_loop D P c mu bb).rows = D.rows ∧
    (generate_Minfinity_loop D P c mu bb).cols = D.cols :=
  foldl_dims _ (minfStep_dims P c mu bb) _ D

theorem loop_symm (P : PosData) (c mu : ℝ) (bb : Bool) (D : NDMat) (i j : ℕ) :
    (generate_Minfinity_loop D P c mu bb).get i j = (generate_Minfinity_loop D P c mu bb).get j i :=
  symmetrise_symm _ i j

theorem dot_dot_symm (L A : NDMat) (n : ℕ) (hL : L.rows = n ∧ L.cols = n)
    (hA : A.rows = n ∧ A.cols = n) (h : ∀ i j, A.get i j = A.get j i) (i j : ℕ) :
    ((L.dot A).dot L.transpose).get i j = ((L.dot A).dot L.transpose).get j i := by
  simp only [NDMat.dot, NDMat.transpose, hL.2, hA.2, Finset.sum_mul]
  rw [Finset.sum_comm]
  exact Finset.sum_congr rfl fun k _ => Finset.sum_congr rfl fun l _ => by rw [h k l]; ring

theorem mulVec_L (Ns Nd : ℕ) (w : ℕ → ℝ) {i : ℕ} (hi : i < 11 * Ns + 6 * Nd) :
    mulVec (11 * Ns + 6 * Nd) (cooMatrix (11 * Ns + 6 * Nd) (dumbbellLEntries Ns Nd)).get w i
      = toDumbVel Ns Nd w i := by
  unfold mulVec
  rw [dumbbellLEntries_eq, show 11 * Ns + 6 * Nd = 11 * Ns + 3 * Nd * 2 by omega,
    coo_runs_mulVec _ _ _ _ _ _ (by omega)]
  unfold toDumbVel
  split_ifs <;> ring

theorem mulVec_LT (Ns Nd : ℕ) (φ : ℕ → ℝ) {i : ℕ} (hi : i < 11 * Ns + 6 * Nd) :
    mulVec (11 * Ns + 6 * Nd)
      (fun i j => (cooMatrix (11 * Ns + 6 * Nd) (dumbbellLEntries Ns Nd)).get j i)
      (toDumbForce Ns Nd φ) i = φ i := by
  unfold mulVec
  rw [dumbbellLEntries_eq, show 11 * Ns + 6 * Nd = 11 * Ns + 3 * Nd * 2 by omega,
    coo_runs_vecMul _ _ _ _ _ _ (by omega)]
  unfold toDumbForce
  by_cases h1 : i < 11 * Ns
  · simp only [if_pos h1]; ring
  · by_cases h2 : i < 11 * Ns + 3 * Nd
    · simp only [if_neg h1, if_pos h2, if_neg (show ¬ i + 3 * Nd < 11 * Ns by omega),
        if_neg (show ¬ i + 3 * Nd < 11 * Ns + 3 * Nd by omega), Nat.add_sub_cancel]
      ring
    · simp only [if_neg h1, if_neg h2, if_neg (show ¬ i - 3 * Nd < 11 * Ns by omega),
        if_pos (show i - 3 * Nd < 11 * Ns + 3 * Nd by omega),
        Nat.sub_add_cancel (show 3 * Nd ≤ i by omega)]
      ring

theorem mulVec_congr {n : ℕ} {M : ℕ → ℕ → ℝ} {v w : ℕ → ℝ} (h : ∀ i < n, v i = w i) (i : ℕ) :
    mulVec n M v i = mulVec n M w i :=
  Finset.sum_congr rfl fun k hk => by rw [h k (Finset.mem_range.mp hk)]

theorem Minfinity_mulVec (P : PosData) (mu : ℝ) (bb : Bool) (φ : ℕ → ℝ) {i : ℕ} (hi : i < side P) :
    mulVec (side P) (generate_Minfinity P mu bb).get (toDumbForce P.Ns P.Nd φ) i
      = toDumbVel P.Ns P.Nd (mulVec (side P) (generate_Minfinity_loop (NDMat.zeros (side P) (side P)) P
          (1 / (8 * Real.pi * mu)) mu bb).get φ) i := by
  unfold side at *
  unfold generate_Minfinity
  dsimp only
  by_cases hN : P.Nd > 0
  · rw [if_pos hN, dot_dot_mulVec _ _ (11 * P.Ns + 6 * P.Nd) ⟨rfl, rfl⟩
      (loop_dims P _ mu bb (NDMat.zeros _ _)), mulVec_L _ _ _ hi]
    have e : ∀ j < 11 * P.Ns + 6 * P.Nd, mulVec (11 * P.Ns + 6 * P.Nd)
        (generate_Minfinity_loop (NDMat.zeros (11 * P.Ns + 6 * P.Nd) (11 * P.Ns + 6 * P.Nd)) P
          (1 / (8 * Real.pi * mu)) mu bb).get
        (mulVec (11 * P.Ns + 6 * P.Nd) (fun i j => (cooMatrix (11 * P.Ns + 6 * P.Nd)
          (dumbbellLEntries P.Ns P.Nd)).get j i) (toDumbForce P.Ns P.Nd φ)) j
        = mulVec (11 * P.Ns + 6 * P.Nd) (generate_Minfinity_loop (NDMat.zeros (11 * P.Ns + 6 * P.Nd)
          (11 * P.Ns + 6 * P.Nd)) P (1 / (8 * Real.pi * mu)) mu bb).get φ j := fun j _ =>
      mulVec_congr (fun k hk => mulVec_LT P.Ns P.Nd φ hk) j
    unfold toDumbVel
    split_ifs with h1 h2
    · rw [e _ (by omega)]
    · rw [e _ (by omega), e _ (by omega)]
    · rw [e _ (by omega), e _ (by omega)]
  · rw [if_neg hN]
    have h0 : P.Nd = 0 := by omega
    have e : ∀ k < 11 * P.Ns + 6 * P.Nd, toDumbForce P.Ns P.Nd φ k = φ k := by
      intro k hk
      unfold toDumbForce
      rw [if_pos (by omega)]
    rw [mulVec_congr e]
    unfold toDumbVel
    rw [if_pos (by omega)]

theorem centre_shift (P : PosData) (t : Fin 3 → ℝ) (u : ℕ) : centre (shift P t) u = fun i => centre P u i + t i := by
  funext i
  show (if u < P.Ns then P.spherePos u i + t i
    else if u < P.Ns + P.Nd then P.dumbPos (u - P.Ns) i + t i - P.dumbDx (u - P.Ns) i / 2
    else P.dumbPos (u - (P.Ns + P.Nd)) i + t i + P.dumbDx (u - (P.Ns + P.Nd)) i / 2) = _
  simp only [centre]
  by_cases h1 : u < P.Ns
  · simp only [if_pos h1]
  · by_cases h2 : u < P.Ns + P.Nd
    · simp only [if_neg h1, if_pos h2]; ring
    · simp only [if_neg h1, if_neg h2]; ring

/-- Change of a bead-coordinate matrix to dumbbell coordinates. -/
theorem dumb_mulVec (P : PosData) (M : NDMat) (hM : M.rows = side P ∧ M.cols = side P) (φ : ℕ → ℝ) {i : ℕ}
    (hi : i < side P) :
    mulVec (side P) (if P.Nd > 0 then (((cooMatrix (11 * P.Ns + 6 * P.Nd) (dumbbellLEntries P.Ns P.Nd)).dot M).dot
      (cooMatrix (11 * P.Ns + 6 * P.Nd) (dumbbellLEntries P.Ns P.Nd)).transpose) else M).get
        (toDumbForce P.Ns P.Nd φ) i
      = toDumbVel P.Ns P.Nd (mulVec (side P) M.get φ) i := by
  unfold side at *
  by_cases hN : P.Nd > 0
  · rw [if_pos hN, dot_dot_mulVec _ _ (11 * P.Ns + 6 * P.Nd) ⟨rfl, rfl⟩ hM, mulVec_L _ _ _ hi]
    have e : ∀ j < 11 * P.Ns + 6 * P.Nd, mulVec (11 * P.Ns + 6 * P.Nd) M.get
        (mulVec (11 * P.Ns + 6 * P.Nd) (fun i j => (cooMatrix (11 * P.Ns + 6 * P.Nd)
          (dumbbellLEntries P.Ns P.Nd)).get j i) (toDumbForce P.Ns P.Nd φ)) j
        = mulVec (11 * P.Ns + 6 * P.Nd) M.get φ j := fun j _ =>
      mulVec_congr (fun k hk => mulVec_LT P.Ns P.Nd φ hk) j
    unfold toDumbVel
    split_ifs with h1 h2
    · rw [e _ (by omega)]
    · rw [e _ (by omega), e _ (by omega)]
    · rw [e _ (by omega), e _ (by omega)]
  · rw [if_neg hN]
    have h0 : P.Nd = 0 := by omega
    have e : ∀ k < 11 * P.Ns + 6 * P.Nd, toDumbForce P.Ns P.Nd φ k = φ k := by
      intro k hk
      unfold toDumbForce
      rw [if_pos (by omega)]
    rw [mulVec_congr e]
    unfold toDumbVel
    rw [if_pos (by omega)]

end SD
