import Verif.Lemmas.Similar

/-!
# Blocks that are symmetric about the first axis

A block of a resistance matrix that does not change under rotations about the first axis and reflections in planes
through it is given by eleven numbers.
-/

set_option autoImplicit false

namespace SD.Cov

open Spec

/-- The block does not change under rotations and reflections that keep the first axis. -/
def Axial (X : Comp → Comp → ℝ) : Prop :=
  ∀ Q : Fin 3 → Fin 3 → ℝ, Orthogonal Q → turnVec Q ex = ex →
    ∀ c1 c2, X c1 c2 = turnComp Q c1 fun d1 => turnComp Q c2 fun d2 => X d1 d2

/-- The eleven numbers. -/
noncomputable def axialScalars (X : Comp → Comp → ℝ) : Scalars where
  XA := X (.f 0) (.f 0) / (6 * Real.pi)
  YA := X (.f 1) (.f 1) / (6 * Real.pi)
  YB := X (.t 1) (.f 2) / (4 * Real.pi)
  XC := X (.t 0) (.t 0) / (8 * Real.pi)
  YC := X (.t 1) (.t 1) / (8 * Real.pi)
  XG := X (.s 0) (.f 0) / ((Real.sqrt 3 + 3) / 6) / (4 * Real.pi)
  YG := X (.s 1) (.f 1) / Real.sqrt 2 / (4 * Real.pi)
  YH := X (.s 3) (.t 1) / (-Real.sqrt 2) / (8 * Real.pi)
  XM := X (.s 4) (.s 4) / (20 / 3 * Real.pi) - 4 * X (.s 2) (.s 0) / (20 / 3 * Real.pi)
  YM := X (.s 1) (.s 1) / (20 / 3 * Real.pi)
  ZM := X (.s 4) (.s 4) / (20 / 3 * Real.pi)

/-- Reflection in the plane across axis `k`. -/
def mirrorQ (k : Fin 3) : Fin 3 → Fin 3 → ℝ := fun i j => if i = j then (if i = k then -1 else 1) else 0

theorem mirrorQ_orth (k : Fin 3) : Orthogonal (mirrorQ k) := by
  intro i j
  fin_cases i <;> fin_cases j <;> fin_cases k <;> simp [mirrorQ, dlt, Fin.sum_univ_three]

theorem mirrorQ_det (k : Fin 3) : det3 (mirrorQ k) = -1 := by
  fin_cases k <;> simp [mirrorQ, det3]

/-- Sign of a component under the reflection. -/
def mirrorSign (k : Fin 3) : Comp → ℝ
  | .f i => if i = k then -1 else 1
  | .t i => if i = k then 1 else -1
  | .s p => match p with
    | 1 => if k = 2 then 1 else -1
    | 3 => if k = 1 then 1 else -1
    | 4 => if k = 0 then 1 else -1
    | _ => 1

theorem rep5_five (Q : Fin 3 → Fin 3 → ℝ) (hQ : Orthogonal Q) (p q : Fin 5) :
    rep5 Q p q = five (turnMat Q (basis5 q)) p := by
  rw [five_turn hQ (basis5_symm q)]
  simp only [five_basis5, mul_ite, mul_one, mul_zero, Finset.sum_ite_eq, Finset.mem_univ, if_true]

theorem mirror_basis (k : Fin 3) (q : Fin 5) (i j : Fin 3) :
    turnMat (mirrorQ k) (basis5 q) i j = mirrorSign k (.s q) * basis5 q i j := by
  fin_cases q <;> fin_cases k <;> fin_cases i <;> fin_cases j <;>
    simp [turnMat, mirrorQ, basis5, mirrorSign, Fin.sum_univ_three]

theorem turnComp_mirror (k : Fin 3) (c : Comp) (F : Comp → ℝ) :
    turnComp (mirrorQ k) c F = mirrorSign k c * F c := by
  cases c with
  | f i => fin_cases i <;> fin_cases k <;> simp [turnComp, mirrorQ, mirrorSign, Fin.sum_univ_three]
  | t i =>
    simp only [turnComp, mirrorQ_det]
    fin_cases i <;> fin_cases k <;> simp [mirrorQ, mirrorSign, Fin.sum_univ_three]
  | s p =>
    have e : ∀ q, rep5 (mirrorQ k) p q = if q = p then mirrorSign k (.s p) else 0 := by
      intro q
      rw [rep5_five _ (mirrorQ_orth k)]
      have : turnMat (mirrorQ k) (basis5 q) = fun i j => mirrorSign k (.s q) * basis5 q i j := by
        funext i j; exact mirror_basis k q i j
      rw [this, five_mul_left one_pos, five_basis5]
      by_cases h : q = p
      · subst h; simp
      · simp [h]
    show ∑ q, rep5 (mirrorQ k) p q * F (.s q) = _
    simp only [e, ite_mul, zero_mul, Finset.sum_ite_eq', Finset.mem_univ, if_true]

theorem mirrorQ_ex {k : Fin 3} (h : k ≠ 0) : turnVec (mirrorQ k) ex = ex := by
  funext i
  fin_cases i <;> fin_cases k <;> simp [turnVec, mirrorQ, ex, Fin.sum_univ_three] at h ⊢

/-- Exchange of the other two axes. -/
def swapQ : Fin 3 → Fin 3 → ℝ := ![![1, 0, 0], ![0, 0, 1], ![0, 1, 0]]

theorem swapQ_orth : Orthogonal swapQ := by
  intro i j
  fin_cases i <;> fin_cases j <;> simp [swapQ, dlt, Fin.sum_univ_three]

theorem swapQ_ex : turnVec swapQ ex = ex := by
  funext i
  fin_cases i <;> simp [turnVec, swapQ, ex, Fin.sum_univ_three]

theorem swapQ_det : det3 swapQ = -1 := by simp [swapQ, det3]

theorem swap_s (F : Comp → ℝ) :
    turnComp swapQ (.s 0) F = Real.sqrt 3 / 2 * F (.s 0) - 1 / 2 * F (.s 2) ∧
    turnComp swapQ (.s 1) F = F (.s 3) ∧
    turnComp swapQ (.s 2) F = -(1 / 2) * F (.s 0) - Real.sqrt 3 / 2 * F (.s 2) ∧
    turnComp swapQ (.s 3) F = F (.s 1) ∧
    turnComp swapQ (.s 4) F = F (.s 4) := by
  have h3 : Real.sqrt 3 ^ 2 = 3 := Real.sq_sqrt (by norm_num)
  have p3 : Real.sqrt 3 ≠ 0 := by positivity
  have p2 : Real.sqrt 2 ≠ 0 := by positivity
  have e : ∀ p, turnComp swapQ (.s p) F = ∑ q, five (turnMat swapQ (basis5 q)) p * F (.s q) := by
    intro p
    show ∑ q, rep5 swapQ p q * F (.s q) = _
    simp only [rep5_five swapQ swapQ_orth]
  have a1 : (Real.sqrt 3 + 1) / 2 * ((Real.sqrt 3 + 1) / (2 * Real.sqrt 3)) + (Real.sqrt 3 - 1) / 2 * (-1 / Real.sqrt 3)
      = Real.sqrt 3 / 2 := by field_simp; nlinarith
  have a2 : (Real.sqrt 3 + 1) / 2 * (-(Real.sqrt 3 - 1) / (2 * Real.sqrt 3)) + (Real.sqrt 3 - 1) / 2 * (-1 / Real.sqrt 3)
      = -(1 / 2) := by field_simp; nlinarith
  have a3 : (Real.sqrt 3 - 1) / 2 * ((Real.sqrt 3 + 1) / (2 * Real.sqrt 3)) + (Real.sqrt 3 + 1) / 2 * (-1 / Real.sqrt 3)
      = -(1 / 2) := by field_simp; nlinarith
  have a4 : (Real.sqrt 3 - 1) / 2 * (-(Real.sqrt 3 - 1) / (2 * Real.sqrt 3)) + (Real.sqrt 3 + 1) / 2 * (-1 / Real.sqrt 3)
      = -(Real.sqrt 3 / 2) := by field_simp; nlinarith
  have a5 : Real.sqrt 2 * (1 / Real.sqrt 2) = 1 := by field_simp
  refine ⟨?_, ?_, ?_, ?_, ?_⟩ <;> rw [e, Fin.sum_univ_five]
  · have q0 : five (turnMat swapQ (basis5 0)) 0 = Real.sqrt 3 / 2 := by
      rw [← a1]; simp [five, turnMat, swapQ, basis5, Fin.sum_univ_three]
    have q1 : five (turnMat swapQ (basis5 1)) 0 = 0 := by simp [five, turnMat, swapQ, basis5, Fin.sum_univ_three]
    have q2 : five (turnMat swapQ (basis5 2)) 0 = -(1 / 2) := by
      rw [← a2]; simp [five, turnMat, swapQ, basis5, Fin.sum_univ_three]
    have q3 : five (turnMat swapQ (basis5 3)) 0 = 0 := by simp [five, turnMat, swapQ, basis5, Fin.sum_univ_three]
    have q4 : five (turnMat swapQ (basis5 4)) 0 = 0 := by simp [five, turnMat, swapQ, basis5, Fin.sum_univ_three]
    rw [q0, q1, q2, q3, q4]; ring
  · simp [five, turnMat, swapQ, basis5, Fin.sum_univ_three]
  · have q0 : five (turnMat swapQ (basis5 0)) 2 = -(1 / 2) := by
      rw [← a3]; simp [five, turnMat, swapQ, basis5, Fin.sum_univ_three]
    have q1 : five (turnMat swapQ (basis5 1)) 2 = 0 := by simp [five, turnMat, swapQ, basis5, Fin.sum_univ_three]
    have q2 : five (turnMat swapQ (basis5 2)) 2 = -(Real.sqrt 3 / 2) := by
      rw [← a4]; simp [five, turnMat, swapQ, basis5, Fin.sum_univ_three]
    have q3 : five (turnMat swapQ (basis5 3)) 2 = 0 := by simp [five, turnMat, swapQ, basis5, Fin.sum_univ_three]
    have q4 : five (turnMat swapQ (basis5 4)) 2 = 0 := by simp [five, turnMat, swapQ, basis5, Fin.sum_univ_three]
    rw [q0, q1, q2, q3, q4]; ring
  · simp [five, turnMat, swapQ, basis5, Fin.sum_univ_three]
  · simp [five, turnMat, swapQ, basis5, Fin.sum_univ_three]

/-- Rotation about the first axis with cosine 3/5. -/
noncomputable def rotQ : Fin 3 → Fin 3 → ℝ := ![![1, 0, 0], ![0, 3 / 5, -(4 / 5)], ![0, 4 / 5, 3 / 5]]

theorem rotQ_orth : Orthogonal rotQ := by
  intro i j
  fin_cases i <;> fin_cases j <;> simp [rotQ, dlt, Fin.sum_univ_three] <;> norm_num

theorem rotQ_ex : turnVec rotQ ex = ex := by
  funext i
  fin_cases i <;> simp [turnVec, rotQ, ex, Fin.sum_univ_three]

theorem rot_s (F : Comp → ℝ) : turnComp rotQ (.s 4) F = -(7 / 25) * F (.s 4)
    + 12 / 25 * Real.sqrt 2 * ((Real.sqrt 3 - 1) / 2 * F (.s 0)
      + (Real.sqrt 3 + 1) / 2 * F (.s 2)) := by
  have p3 : Real.sqrt 3 ≠ 0 := by positivity
  have p2 : Real.sqrt 2 ≠ 0 := by positivity
  have h3 : Real.sqrt 3 ^ 2 = 3 := Real.sq_sqrt (by norm_num)
  show ∑ q, rep5 rotQ 4 q * F (.s q) = _
  simp only [rep5_five rotQ rotQ_orth, Fin.sum_univ_five]
  have q0 : five (turnMat rotQ (basis5 0)) 4 = 12 / 25 * Real.sqrt 2 * ((Real.sqrt 3 - 1) / 2) := by
    simp [five, turnMat, rotQ, basis5, Fin.sum_univ_three]; field_simp; ring_nf; rw [h3]; ring
  have q1 : five (turnMat rotQ (basis5 1)) 4 = 0 := by simp [five, turnMat, rotQ, basis5, Fin.sum_univ_three]
  have q2 : five (turnMat rotQ (basis5 2)) 4 = 12 / 25 * Real.sqrt 2 * ((Real.sqrt 3 + 1) / 2) := by
    simp [five, turnMat, rotQ, basis5, Fin.sum_univ_three]; field_simp; ring_nf; rw [h3]; ring
  have q3 : five (turnMat rotQ (basis5 3)) 4 = 0 := by simp [five, turnMat, rotQ, basis5, Fin.sum_univ_three]
  have q4 : five (turnMat rotQ (basis5 4)) 4 = -(7 / 25) := by
    simp [five, turnMat, rotQ, basis5, Fin.sum_univ_three]; field_simp; ring
  rw [q0, q1, q2, q3, q4]; ring

theorem axial_zero {X : Comp → Comp → ℝ} (h : Axial X) (k : Fin 3) (hk : k ≠ 0) {c1 c2 : Comp} (hs : mirrorSign k c1 * mirrorSign k c2 = -1) :
    X c1 c2 = 0 := by
  have e := h (mirrorQ k) (mirrorQ_orth k) (mirrorQ_ex hk) c1 c2
  rw [turnComp_mirror, turnComp_mirror, ← mul_assoc, hs] at e
  linarith

theorem swap_f (F : Comp → ℝ) : turnComp swapQ (.f 0) F = F (.f 0) ∧ turnComp swapQ (.f 1) F = F (.f 2) ∧
    turnComp swapQ (.f 2) F = F (.f 1) := by
  refine ⟨?_, ?_, ?_⟩ <;> simp [turnComp, swapQ, Fin.sum_univ_three]

theorem swap_t (F : Comp → ℝ) : turnComp swapQ (.t 0) F = -F (.t 0) ∧ turnComp swapQ (.t 1) F = -F (.t 2) ∧
    turnComp swapQ (.t 2) F = -F (.t 1) := by
  refine ⟨?_, ?_, ?_⟩ <;> simp only [turnComp, swapQ_det] <;> simp [swapQ, Fin.sum_univ_three]

theorem axial_ff {X : Comp → Comp → ℝ} (h : Axial X) (i : Fin 3) (j : Fin 3) :
    X (.f i) (.f j) = nearDirect (axialScalars X) 1 ex (.f i) (.f j) := by
  have h3 : Real.sqrt 3 ^ 2 = 3 := Real.sq_sqrt (by norm_num)
  have h2 : Real.sqrt 2 ^ 2 = 2 := Real.sq_sqrt (by norm_num)
  have p3 : Real.sqrt 3 ≠ 0 := by positivity
  have p33 : Real.sqrt 3 + 3 ≠ 0 := by positivity
  have p2 : Real.sqrt 2 ≠ 0 := by positivity
  have pp := Real.pi_ne_zero
  have z1 : ∀ c1 c2, mirrorSign 1 c1 * mirrorSign 1 c2 = -1 → X c1 c2 = 0 := fun _ _ => axial_zero h 1 (by decide)
  have z2 : ∀ c1 c2, mirrorSign 2 c1 * mirrorSign 2 c2 = -1 → X c1 c2 = 0 := fun _ _ => axial_zero h 2 (by decide)
  have sw := h swapQ swapQ_orth swapQ_ex
  have e := sw (.f 1) (.f 1)
  rw [(swap_f _).2.1, (swap_f _).2.1] at e
  fin_cases i <;> fin_cases j <;>
    simp [nearDirect, nearForce, dotp, ex, Spec.unit, dlt, axialScalars] <;>
    first
      | (refine z1 _ _ ?_; simp [mirrorSign]; done)
      | (refine z2 _ _ ?_; simp [mirrorSign]; done)
      | (field_simp; done)
      | (rw [← e]; field_simp; done)

theorem axial_tf {X : Comp → Comp → ℝ} (h : Axial X) (i : Fin 3) (j : Fin 3) :
    X (.t i) (.f j) = nearDirect (axialScalars X) 1 ex (.t i) (.f j) := by
  have h3 : Real.sqrt 3 ^ 2 = 3 := Real.sq_sqrt (by norm_num)
  have h2 : Real.sqrt 2 ^ 2 = 2 := Real.sq_sqrt (by norm_num)
  have p3 : Real.sqrt 3 ≠ 0 := by positivity
  have p33 : Real.sqrt 3 + 3 ≠ 0 := by positivity
  have p2 : Real.sqrt 2 ≠ 0 := by positivity
  have pp := Real.pi_ne_zero
  have z1 : ∀ c1 c2, mirrorSign 1 c1 * mirrorSign 1 c2 = -1 → X c1 c2 = 0 := fun _ _ => axial_zero h 1 (by decide)
  have z2 : ∀ c1 c2, mirrorSign 2 c1 * mirrorSign 2 c2 = -1 → X c1 c2 = 0 := fun _ _ => axial_zero h 2 (by decide)
  have sw := h swapQ swapQ_orth swapQ_ex
  have e := sw (.t 1) (.f 2)
  rw [(swap_t _).2.1, (swap_f _).2.2] at e
  fin_cases i <;> fin_cases j <;>
    simp [nearDirect, nearTorque, cross, dotp, ex, Spec.unit, dlt, axialScalars] <;>
    first
      | (refine z1 _ _ ?_; simp [mirrorSign]; done)
      | (refine z2 _ _ ?_; simp [mirrorSign]; done)
      | (field_simp; done)
      | (rw [e]; field_simp; done)

theorem axial_tt {X : Comp → Comp → ℝ} (h : Axial X) (i : Fin 3) (j : Fin 3) :
    X (.t i) (.t j) = nearDirect (axialScalars X) 1 ex (.t i) (.t j) := by
  have h3 : Real.sqrt 3 ^ 2 = 3 := Real.sq_sqrt (by norm_num)
  have h2 : Real.sqrt 2 ^ 2 = 2 := Real.sq_sqrt (by norm_num)
  have p3 : Real.sqrt 3 ≠ 0 := by positivity
  have p33 : Real.sqrt 3 + 3 ≠ 0 := by positivity
  have p2 : Real.sqrt 2 ≠ 0 := by positivity
  have pp := Real.pi_ne_zero
  have z1 : ∀ c1 c2, mirrorSign 1 c1 * mirrorSign 1 c2 = -1 → X c1 c2 = 0 := fun _ _ => axial_zero h 1 (by decide)
  have z2 : ∀ c1 c2, mirrorSign 2 c1 * mirrorSign 2 c2 = -1 → X c1 c2 = 0 := fun _ _ => axial_zero h 2 (by decide)
  have sw := h swapQ swapQ_orth swapQ_ex
  have e := sw (.t 1) (.t 1)
  rw [(swap_t _).2.1, (swap_t _).2.1, neg_neg] at e
  fin_cases i <;> fin_cases j <;>
    simp [nearDirect, nearTorque, cross, dotp, ex, Spec.unit, dlt, axialScalars] <;>
    first
      | (refine z1 _ _ ?_; simp [mirrorSign]; done)
      | (refine z2 _ _ ?_; simp [mirrorSign]; done)
      | (field_simp; done)
      | (rw [← e]; field_simp; done)

theorem axial_sf {X : Comp → Comp → ℝ} (h : Axial X) (p : Fin 5) (j : Fin 3) :
    X (.s p) (.f j) = nearDirect (axialScalars X) 1 ex (.s p) (.f j) := by
  have h3 : Real.sqrt 3 ^ 2 = 3 := Real.sq_sqrt (by norm_num)
  have h2 : Real.sqrt 2 ^ 2 = 2 := Real.sq_sqrt (by norm_num)
  have p3 : Real.sqrt 3 ≠ 0 := by positivity
  have p33 : Real.sqrt 3 + 3 ≠ 0 := by positivity
  have p2 : Real.sqrt 2 ≠ 0 := by positivity
  have pp := Real.pi_ne_zero
  have z1 : ∀ c1 c2, mirrorSign 1 c1 * mirrorSign 1 c2 = -1 → X c1 c2 = 0 := fun _ _ => axial_zero h 1 (by decide)
  have z2 : ∀ c1 c2, mirrorSign 2 c1 * mirrorSign 2 c2 = -1 → X c1 c2 = 0 := fun _ _ => axial_zero h 2 (by decide)
  have sw := h swapQ swapQ_orth swapQ_ex
  have e := sw (.s 1) (.f 1)
  rw [(swap_s _).2.1, (swap_f _).2.1] at e
  have e2 := sw (.s 0) (.f 0)
  rw [(swap_s _).1, (swap_f _).1, (swap_f _).1] at e2
  have e3 : X (.s 2) (.f 0) = (Real.sqrt 3 - 2) * X (.s 0) (.f 0) := by linarith
  fin_cases p <;> fin_cases j <;>
    simp [nearDirect, nearStress, five, cross, dotp, app, ex, Spec.unit, dlt, axialScalars] <;>
    first
      | (refine z1 _ _ ?_; simp [mirrorSign]; done)
      | (refine z2 _ _ ?_; simp [mirrorSign]; done)
      | (field_simp; done)
      | (rw [← e]; field_simp; done)
      | (field_simp; ring1)
      | (rw [e3]; field_simp; ring_nf; rw [h3]; ring1)
      | skip

theorem axial_st {X : Comp → Comp → ℝ} (h : Axial X) (p : Fin 5) (j : Fin 3) :
    X (.s p) (.t j) = nearDirect (axialScalars X) 1 ex (.s p) (.t j) := by
  have h3 : Real.sqrt 3 ^ 2 = 3 := Real.sq_sqrt (by norm_num)
  have h2 : Real.sqrt 2 ^ 2 = 2 := Real.sq_sqrt (by norm_num)
  have p3 : Real.sqrt 3 ≠ 0 := by positivity
  have p33 : Real.sqrt 3 + 3 ≠ 0 := by positivity
  have p2 : Real.sqrt 2 ≠ 0 := by positivity
  have pp := Real.pi_ne_zero
  have z1 : ∀ c1 c2, mirrorSign 1 c1 * mirrorSign 1 c2 = -1 → X c1 c2 = 0 := fun _ _ => axial_zero h 1 (by decide)
  have z2 : ∀ c1 c2, mirrorSign 2 c1 * mirrorSign 2 c2 = -1 → X c1 c2 = 0 := fun _ _ => axial_zero h 2 (by decide)
  have sw := h swapQ swapQ_orth swapQ_ex
  have e := sw (.s 3) (.t 1)
  rw [(swap_s _).2.2.2.1, (swap_t _).2.1] at e
  have e2 := sw (.s 4) (.t 0)
  rw [(swap_s _).2.2.2.2, (swap_t _).1] at e2
  have e3 : X (.s 4) (.t 0) = 0 := by linarith
  fin_cases p <;> fin_cases j <;>
    simp [nearDirect, nearStress, five, cross, dotp, app, ex, Spec.unit, dlt, axialScalars] <;>
    first
      | (refine z1 _ _ ?_; simp [mirrorSign]; done)
      | (refine z2 _ _ ?_; simp [mirrorSign]; done)
      | (field_simp; done)
      | (rw [e]; field_simp; done)
      | exact e3
      | skip

theorem axial_ss {X : Comp → Comp → ℝ} (h : Axial X) (p : Fin 5) (q : Fin 5) :
    X (.s p) (.s q) = nearDirect (axialScalars X) 1 ex (.s p) (.s q) := by
  have h3 : Real.sqrt 3 ^ 2 = 3 := Real.sq_sqrt (by norm_num)
  have h2 : Real.sqrt 2 ^ 2 = 2 := Real.sq_sqrt (by norm_num)
  have p3 : Real.sqrt 3 ≠ 0 := by positivity
  have p33 : Real.sqrt 3 + 3 ≠ 0 := by positivity
  have p2 : Real.sqrt 2 ≠ 0 := by positivity
  have pp := Real.pi_ne_zero
  have z1 : ∀ c1 c2, mirrorSign 1 c1 * mirrorSign 1 c2 = -1 → X c1 c2 = 0 := fun _ _ => axial_zero h 1 (by decide)
  have z2 : ∀ c1 c2, mirrorSign 2 c1 * mirrorSign 2 c2 = -1 → X c1 c2 = 0 := fun _ _ => axial_zero h 2 (by decide)
  have sw := h swapQ swapQ_orth swapQ_ex
  have ro := h rotQ rotQ_orth rotQ_ex (.s 4) (.s 4)
  have e1 := sw (.s 1) (.s 1)
  rw [(swap_s _).2.1, (swap_s _).2.1] at e1
  have e00 := sw (.s 0) (.s 0)
  have e02 := sw (.s 0) (.s 2)
  have e20 := sw (.s 2) (.s 0)
  rw [(swap_s _).1, (swap_s _).1, (swap_s _).1] at e00
  rw [(swap_s _).1, (swap_s _).2.2.1, (swap_s _).2.2.1] at e02
  rw [(swap_s _).2.2.1, (swap_s _).1, (swap_s _).1] at e20
  have z04 : X (.s 0) (.s 4) = 0 := z1 _ _ (by simp [mirrorSign])
  have z24 : X (.s 2) (.s 4) = 0 := z1 _ _ (by simp [mirrorSign])
  have z40 : X (.s 4) (.s 0) = 0 := z1 _ _ (by simp [mirrorSign])
  have z42 : X (.s 4) (.s 2) = 0 := z1 _ _ (by simp [mirrorSign])
  rw [rot_s, rot_s, rot_s, rot_s, z04, z24, z40, z42] at ro
  have s20 : X (.s 0) (.s 2) = X (.s 2) (.s 0) := by
    linear_combination (e02 - e20) / 2 - (X (.s 0) (.s 2) - X (.s 2) (.s 0)) / 8 * h3
  have fa : X (.s 0) (.s 0) - X (.s 2) (.s 2) + 2 * Real.sqrt 3 * X (.s 2) (.s 0) = 0 := by
    linear_combination 4 * e00 + X (.s 0) (.s 0) * h3 - Real.sqrt 3 * s20
  have fb : X (.s 0) (.s 0) + X (.s 2) (.s 2) = 2 * X (.s 4) (.s 4) - 4 * X (.s 2) (.s 0) := by
    have ro' : 2 * X (.s 4) (.s 4) = (1 - Real.sqrt 3 / 2) * X (.s 0) (.s 0)
        + (X (.s 0) (.s 2) + X (.s 2) (.s 0)) / 2 + (1 + Real.sqrt 3 / 2) * X (.s 2) (.s 2) := by
      linear_combination 625 / 288 * ro
        + 1 / 2 * (((Real.sqrt 3 - 1) / 2) ^ 2 * X (.s 0) (.s 0) + (Real.sqrt 3 - 1) / 2 * ((Real.sqrt 3 + 1) / 2)
          * (X (.s 0) (.s 2) + X (.s 2) (.s 0)) + ((Real.sqrt 3 + 1) / 2) ^ 2 * X (.s 2) (.s 2)) * h2
        + (X (.s 0) (.s 0) + X (.s 0) (.s 2) + X (.s 2) (.s 0) + X (.s 2) (.s 2)) / 4 * h3
    linear_combination -ro' + Real.sqrt 3 / 2 * fa - X (.s 2) (.s 0) * h3 - s20 / 2
  have f1 : X (.s 0) (.s 0) = X (.s 4) (.s 4) - (2 + Real.sqrt 3) * X (.s 2) (.s 0) := by linarith
  have f2 : X (.s 2) (.s 2) = X (.s 4) (.s 4) - (2 - Real.sqrt 3) * X (.s 2) (.s 0) := by linarith
  fin_cases p <;> fin_cases q <;>
    simp [nearDirect, nearStress, five, cross, dotp, app, ex, basis5, dlt, axialScalars] <;>
    first
      | (refine z1 _ _ ?_; simp [mirrorSign]; done)
      | (refine z2 _ _ ?_; simp [mirrorSign]; done)
      | (field_simp; done)
      | (rw [← e1]; field_simp; done)
      | (try rw [f1]
         try rw [f2]
         try rw [s20]
         field_simp
         ring_nf
         try simp only [h3, show Real.sqrt 3 ^ 3 = 3 * Real.sqrt 3 by rw [pow_succ, h3]]
         ring1)

/-- **A block symmetric about the axis is given by its eleven numbers.** -/
theorem axial_form {X : Comp → Comp → ℝ} (h : Axial X) {c1 c2 : Comp} (hc : order c2 ≤ order c1) :
    X c1 c2 = nearDirect (axialScalars X) 1 ex c1 c2 := by
  cases c1 <;> cases c2 <;> simp only [order] at hc
  · exact axial_ff h _ _
  · omega
  · omega
  · exact axial_tf h _ _
  · exact axial_tt h _ _
  · omega
  · exact axial_sf h _ _
  · exact axial_st h _ _
  · exact axial_ss h _ _

end SD.Cov
