import Verif.Model.Scalars
import Verif.Lemmas.NearSystem
import Verif.Props.NearField

/-!
Reading scalars off a two-sphere matrix.
-/

set_option autoImplicit false

namespace SD

open Spec

/-- The first axis. -/
def ex : Fin 3 → ℝ := ![1, 0, 0]

theorem ex0 : ex 0 = 1 := rfl
theorem ex1 : ex 1 = 0 := rfl
theorem ex2 : ex 2 = 0 := rfl

/-- Numbering of the eleven scalars. -/
def Spec.Scalars.nth (z : Scalars) : ℕ → ℝ
  | 0 => z.XA
  | 1 => z.YA
  | 2 => z.YB
  | 3 => z.XC
  | 4 => z.YC
  | 5 => z.XG
  | 6 => z.YG
  | 7 => z.YH
  | 8 => z.XM
  | 9 => z.YM
  | 10 => z.ZM
  | _ => 0

/-- The rows of sphere 0 in a two-sphere matrix are those of given scalars: `z0` for its own motion and `z1`
for its neighbour's. -/
structure FromScalars (M : NDMat) (a : ℝ) (z0 z1 : Scalars) : Prop where
  own : ∀ c1 c2, M.get (row 2 0 c1) (row 2 0 c2) = nearSelf z0 a ex c1 c2
  pair : ∀ c1 c2, order c2 ≤ order c1 → M.get (row 2 0 c1) (row 2 1 c2) = nearDirect z1 a ex c1 c2
  back : ∀ c1 c2, order c1 < order c2 → M.get (row 2 1 c1) (row 2 0 c2) = nearDirect z1 a ex c2 c1

/-- The reading recovers the scalars. -/
theorem extract_of_scalars {M : NDMat} {a : ℝ} (ha : a ≠ 0) {z0 z1 : Scalars} (h : FromScalars M a z0 z1)
    {k : ℕ} (hk : k < 11) : extractScalar M a k 0 = z0.nth k ∧ extractScalar M a k 1 = z1.nth k := by
  have hpi := Real.pi_ne_zero
  have h2 : Real.sqrt 2 ≠ 0 := by positivity
  have h3 : (Real.sqrt 3 + 3) / 6 ≠ 0 := by positivity
  have s3 : Real.sqrt 3 ≠ 0 := by positivity
  have q3 : Real.sqrt 3 ^ 2 = 3 := Real.sq_sqrt (by norm_num)
  have o := h.own
  have p := h.pair
  have b := h.back
  interval_cases k
  · have e1 := o (.f 0) (.f 0)
    have e2 := p (.f 0) (.f 0) le_rfl
    simp [row, nearSelf, nearDirect, nearForce, dotp, ex, Spec.unit, dlt, order] at e1 e2
    simp only [extractScalar, Spec.Scalars.nth, e1, e2]
    constructor <;> field_simp
  · have e1 := o (.f 1) (.f 1)
    have e2 := p (.f 1) (.f 1) le_rfl
    simp [row, nearSelf, nearDirect, nearForce, dotp, ex, Spec.unit, dlt, order] at e1 e2
    simp only [extractScalar, Spec.Scalars.nth, e1, e2]
    constructor <;> field_simp
  · have e1 := o (.f 2) (.t 1)
    have e2 := b (.f 2) (.t 1) (by simp [order])
    simp [row, nearSelf, nearDirect, nearTorque, dotp, cross, ex, Spec.unit, dlt, order] at e1 e2
    simp only [extractScalar, Spec.Scalars.nth, e1, e2]
    constructor <;> field_simp
  · have e1 := o (.t 0) (.t 0)
    have e2 := p (.t 0) (.t 0) le_rfl
    simp [row, nearSelf, nearDirect, nearTorque, dotp, cross, ex, Spec.unit, dlt, order] at e1 e2
    simp only [extractScalar, Spec.Scalars.nth, e1, e2]
    constructor <;> field_simp
  · have e1 := o (.t 1) (.t 1)
    have e2 := p (.t 1) (.t 1) le_rfl
    simp [row, nearSelf, nearDirect, nearTorque, dotp, cross, ex, Spec.unit, dlt, order] at e1 e2
    simp only [extractScalar, Spec.Scalars.nth, e1, e2]
    constructor <;> field_simp
  · have e1 := o (.f 0) (.s 0)
    have e2 := b (.f 0) (.s 0) (by simp [order])
    simp [row, nearSelf, nearDirect, nearStress, five, dotp, cross, app, ex, Spec.unit, dlt, order] at e1 e2
    simp only [extractScalar, Spec.Scalars.nth, e1, e2]
    constructor <;> field_simp <;> ring
  · have e1 := o (.f 1) (.s 1)
    have e2 := b (.f 1) (.s 1) (by simp [order])
    simp [row, nearSelf, nearDirect, nearStress, five, dotp, cross, app, ex, Spec.unit, dlt, order] at e1 e2
    simp only [extractScalar, Spec.Scalars.nth, e1, e2]
    constructor <;> field_simp
  · have e1 := o (.t 1) (.s 3)
    have e2 := b (.t 1) (.s 3) (by simp [order])
    simp [row, nearSelf, nearDirect, nearStress, five, dotp, cross, app, ex, Spec.unit, dlt, order] at e1 e2
    simp only [extractScalar, Spec.Scalars.nth, e1, e2]
    constructor <;> field_simp
  · have e1 := o (.s 4) (.s 4)
    have e2 := p (.s 4) (.s 4) le_rfl
    have e3 := o (.s 2) (.s 0)
    have e4 := p (.s 2) (.s 0) le_rfl
    simp [row, nearSelf, nearDirect, nearStress, five, dotp, cross, app, ex, basis5, dlt, order] at e1 e2 e3 e4
    simp only [extractScalar, Spec.Scalars.nth, e1, e2, e3, e4]
    constructor
    · field_simp
      ring_nf
      simp only [q3]
      ring
    · field_simp
      ring_nf
      simp only [q3]
      ring
  · have e1 := o (.s 1) (.s 1)
    have e2 := p (.s 1) (.s 1) le_rfl
    simp [row, nearSelf, nearDirect, nearStress, five, dotp, cross, app, ex, basis5, dlt, order] at e1 e2
    simp only [extractScalar, Spec.Scalars.nth, e1, e2]
    constructor <;> field_simp
  · have e1 := o (.s 4) (.s 4)
    have e2 := p (.s 4) (.s 4) le_rfl
    simp [row, nearSelf, nearDirect, nearStress, five, dotp, cross, app, ex, basis5, dlt, order] at e1 e2
    simp only [extractScalar, Spec.Scalars.nth, e1, e2]
    constructor <;> field_simp

end SD
