import Verif.Spec.PairMotion
import Verif.Props.ScalarTables
import Verif.Lemmas.SolveEcho
import Verif.Lemmas.Positive

/-!
Two spheres: from the entries of a resistance matrix to the two-sphere relation.
-/

set_option autoImplicit false

namespace SD.Pair

open Spec TwoSphere

/-! ## Exchange of equal spheres -/

/-- The exchange of the first two and, with a change of sign, of the last two components. -/
def K4 : Matrix (Fin 4) (Fin 4) ℝ := !![0, 1, 0, 0; 1, 0, 0, 0; 0, 0, 0, -1; 0, 0, -1, 0]

/-- The exchange of two components. -/
def J2 : Matrix (Fin 2) (Fin 2) ℝ := !![0, 1; 1, 0]

theorem K4_sq : K4 * K4 = 1 := by
  ext i j
  fin_cases i <;> fin_cases j <;> simp [K4, Matrix.mul_apply, Fin.sum_univ_four]

theorem J2_sq : J2 * J2 = 1 := by
  ext i j
  fin_cases i <;> fin_cases j <;> simp [J2, Matrix.mul_apply, Fin.sum_univ_two]

theorem inv_exchange {n : ℕ} {m q k : Matrix (Fin n) (Fin n) ℝ} (h1 : m * q = 1) (h2 : q * m = 1)
    (hk : k * k = 1) (hm : k * m * k = m) : k * q * k = q := by
  have h3 : m * (k * q * k) = 1 := by
    calc m * (k * q * k) = k * m * k * (k * q * k) := by rw [hm]
      _ = k * m * (k * k) * q * k := by simp only [Matrix.mul_assoc]
      _ = k * (m * q) * k := by rw [hk]; simp only [Matrix.mul_assoc, Matrix.mul_one, Matrix.one_mul]
      _ = 1 := by rw [h1, Matrix.mul_one, hk]
  calc k * q * k = q * m * (k * q * k) := by rw [h2, Matrix.one_mul]
    _ = q := by rw [Matrix.mul_assoc, h3, Matrix.mul_one]

theorem J2_apply (m : Matrix (Fin 2) (Fin 2) ℝ) :
    J2 * m * J2 = !![m 1 1, m 1 0; m 0 1, m 0 0] := by
  ext i j
  fin_cases i <;> fin_cases j <;> simp [J2, Matrix.mul_apply, Matrix.vecMul, dotProduct, Fin.sum_univ_two]

theorem K4_apply (m : Matrix (Fin 4) (Fin 4) ℝ) :
    K4 * m * K4 = !![m 1 1, m 1 0, -m 1 3, -m 1 2; m 0 1, m 0 0, -m 0 3, -m 0 2;
      -m 3 1, -m 3 0, m 3 3, m 3 2; -m 2 1, -m 2 0, m 2 3, m 2 2] := by
  ext i j
  fin_cases i <;> fin_cases j <;> simp [K4, Matrix.mul_apply, Matrix.vecMul, dotProduct, Fin.sum_univ_four]

theorem exchange_fields {z : PairScalars} (h : exchange z = z) :
    (z.XA 0 0 = z.XA 1 1 ∧ z.XA 0 1 = z.XA 1 0) ∧ (z.YA 0 0 = z.YA 1 1 ∧ z.YA 0 1 = z.YA 1 0) ∧
    (z.YB 0 0 = -z.YB 1 1 ∧ z.YB 0 1 = -z.YB 1 0) ∧ (z.XC 0 0 = z.XC 1 1 ∧ z.XC 0 1 = z.XC 1 0) ∧
    (z.YC 0 0 = z.YC 1 1 ∧ z.YC 0 1 = z.YC 1 0) ∧ (z.XG 0 0 = -z.XG 1 1 ∧ z.XG 0 1 = -z.XG 1 0) ∧
    (z.YG 0 0 = -z.YG 1 1 ∧ z.YG 0 1 = -z.YG 1 0) ∧ (z.YH 0 0 = z.YH 1 1 ∧ z.YH 0 1 = z.YH 1 0) ∧
    (z.XM 0 0 = z.XM 1 1 ∧ z.XM 0 1 = z.XM 1 0) ∧ (z.YM 0 0 = z.YM 1 1 ∧ z.YM 0 1 = z.YM 1 0) ∧
    (z.ZM 0 0 = z.ZM 1 1 ∧ z.ZM 0 1 = z.ZM 1 0) := by
  have g : ∀ f : PairScalars → Fin 2 → Fin 2 → ℝ, ∀ i j, f z i j = f (exchange z) i j := fun f i j => by rw [h]
  exact ⟨⟨g PairScalars.XA 0 0, g PairScalars.XA 0 1⟩, ⟨g PairScalars.YA 0 0, g PairScalars.YA 0 1⟩,
    ⟨g PairScalars.YB 0 0, g PairScalars.YB 0 1⟩, ⟨g PairScalars.XC 0 0, g PairScalars.XC 0 1⟩,
    ⟨g PairScalars.YC 0 0, g PairScalars.YC 0 1⟩, ⟨g PairScalars.XG 0 0, g PairScalars.XG 0 1⟩,
    ⟨g PairScalars.YG 0 0, g PairScalars.YG 0 1⟩, ⟨g PairScalars.YH 0 0, g PairScalars.YH 0 1⟩,
    ⟨g PairScalars.XM 0 0, g PairScalars.XM 0 1⟩, ⟨g PairScalars.YM 0 0, g PairScalars.YM 0 1⟩,
    ⟨g PairScalars.ZM 0 0, g PairScalars.ZM 0 1⟩⟩

/-- Scalars that do not change when the spheres are exchanged are converted to such scalars. -/
theorem convert_exchange {z R : PairScalars} (h : convert_dim_kim_mobility_to_dim_resistance z = some R)
    (hz : exchange z = z) : flipS (R.at 0 0) = R.at 1 1 ∧ flipS (R.at 0 1) = R.at 1 0 := by
  unfold convert_dim_kim_mobility_to_dim_resistance at h
  simp only [Option.bind_eq_bind, Option.bind_eq_some_iff] at h
  obtain ⟨XA, hxa, XC, hxc, Q, hq, h⟩ := h
  replace h := Option.some.inj h
  obtain ⟨a1, a2⟩ := npInv_some hxa
  obtain ⟨c1, c2⟩ := npInv_some hxc
  obtain ⟨q1, q2⟩ := npInv_some hq
  obtain ⟨⟨xa0, xa1⟩, ⟨ya0, ya1⟩, ⟨yb0, yb1⟩, ⟨xc0, xc1⟩, ⟨yc0, yc1⟩, ⟨xg0, xg1⟩, ⟨yg0, yg1⟩, ⟨yh0, yh1⟩,
    ⟨xm0, xm1⟩, ⟨ym0, ym1⟩, zm0, zm1⟩ := exchange_fields hz
  have sA := inv_exchange a1 a2 J2_sq (by
    rw [J2_apply]; ext i j; fin_cases i <;> fin_cases j <;> simp [mat2, xa0, xa1])
  have sC := inv_exchange c1 c2 J2_sq (by
    rw [J2_apply]; ext i j; fin_cases i <;> fin_cases j <;> simp [mat2, xc0, xc1])
  have sQ := inv_exchange q1 q2 K4_sq (by
    rw [K4_apply]; ext i j
    fin_cases i <;> fin_cases j <;> simp [matrix_yabc, ya0, ya1, yb0, yb1, yc0, yc1])
  have sN : K4 * (Q * matrix_ygh z) * J2 = -(Q * matrix_ygh z) := by
    have e : K4 * matrix_ygh z * J2 = -matrix_ygh z := by
      ext i j
      fin_cases i <;> fin_cases j <;>
        simp [K4, J2, Matrix.mul_apply, Fin.sum_univ_four, Fin.sum_univ_two, matrix_ygh, yg0, yg1, yh0, yh1]
    calc K4 * (Q * matrix_ygh z) * J2 = K4 * Q * (K4 * K4) * matrix_ygh z * J2 := by
          rw [K4_sq]; simp only [Matrix.mul_assoc, Matrix.one_mul]
      _ = K4 * Q * K4 * (K4 * matrix_ygh z * J2) := by simp only [Matrix.mul_assoc]
      _ = -(Q * matrix_ygh z) := by rw [sQ, e, Matrix.mul_neg]
  have tA := fun i j => congrFun (congrFun sA i) j
  have tC := fun i j => congrFun (congrFun sC i) j
  have tQ := fun i j => congrFun (congrFun sQ i) j
  have tN := fun i j => congrFun (congrFun sN i) j
  rw [J2_apply] at tA tC
  rw [K4_apply] at tQ
  generalize Q * matrix_ygh z = N at tN h
  have n00 : N 1 1 = -N 0 0 := by
    simpa [K4, J2, Matrix.mul_apply, Matrix.vecMul, dotProduct, Fin.sum_univ_four, Fin.sum_univ_two] using tN 0 0
  have n01 : N 1 0 = -N 0 1 := by
    simpa [K4, J2, Matrix.mul_apply, Matrix.vecMul, dotProduct, Fin.sum_univ_four, Fin.sum_univ_two] using tN 0 1
  have n20 : N 3 1 = N 2 0 := by
    simpa [K4, J2, Matrix.mul_apply, Matrix.vecMul, dotProduct, Fin.sum_univ_four, Fin.sum_univ_two] using tN 2 0
  have n21 : N 3 0 = N 2 1 := by
    simpa [K4, J2, Matrix.mul_apply, Matrix.vecMul, dotProduct, Fin.sum_univ_four, Fin.sum_univ_two] using tN 2 1
  have A0 : XA 1 1 = XA 0 0 := by simpa using tA 0 0
  have A1 : XA 1 0 = XA 0 1 := by simpa using tA 0 1
  have C0 : XC 1 1 = XC 0 0 := by simpa using tC 0 0
  have C1 : XC 1 0 = XC 0 1 := by simpa using tC 0 1
  have Q0 : Q 1 1 = Q 0 0 := by simpa using tQ 0 0
  have Q1 : Q 1 0 = Q 0 1 := by simpa using tQ 0 1
  have Q2 : Q 1 3 = -Q 0 2 := by rw [eq_neg_iff_add_eq_zero, ← neg_eq_zero]; have := tQ 0 2; simp at this; linarith
  have Q3 : Q 1 2 = -Q 0 3 := by have := tQ 0 3; simp at this; linarith
  have Q4 : Q 3 3 = Q 2 2 := by simpa using tQ 2 2
  have Q5 : Q 3 2 = Q 2 3 := by simpa using tQ 2 3
  subst h
  constructor
  · simp only [flipS, PairScalars.at, quad, Matrix.cons_val_zero, Matrix.cons_val_one, Matrix.add_apply,
      Matrix.smul_apply, Matrix.mul_apply, Fin.sum_univ_two, mat2_apply, smul_eq_mul, mat2t, Matrix.of_apply,
      Matrix.cons_val', Matrix.cons_val_fin_one, n00, n01, n20, n21, A0, A1, C0, C1, Q0, Q1, Q2, Q3, Q4, Q5,
      xg0, xg1, yg0, yg1, yh0, yh1, xm0, xm1, ym0, ym1, zm0, zm1, Scalars.mk.injEq]
    refine ⟨?_, ?_, ?_, ?_, ?_, ?_, ?_, ?_, ?_, ?_, ?_⟩ <;>
      first | rfl | exact A0.symm | exact A1.symm | exact C0.symm | exact C1.symm | trivial | ring
  · simp only [flipS, PairScalars.at, quad, Matrix.cons_val_zero, Matrix.cons_val_one, Matrix.add_apply,
      Matrix.smul_apply, Matrix.mul_apply, Fin.sum_univ_two, mat2_apply, smul_eq_mul, mat2t, Matrix.of_apply,
      Matrix.cons_val', Matrix.cons_val_fin_one, n00, n01, n20, n21, A0, A1, C0, C1, Q0, Q1, Q2, Q3, Q4, Q5,
      xg0, xg1, yg0, yg1, yh0, yh1, xm0, xm1, ym0, ym1, zm0, zm1, Scalars.mk.injEq]
    refine ⟨?_, ?_, ?_, ?_, ?_, ?_, ?_, ?_, ?_, ?_, ?_⟩ <;>
      first | rfl | exact A0.symm | exact A1.symm | exact C0.symm | exact C1.symm | trivial | ring

/-! ## Units -/

/-- Scalars of spheres `a` times as large. -/
def scaleS (a : ℝ) (z : Scalars) : Scalars where
  XA := a * z.XA
  YA := a * z.YA
  YB := a ^ 2 * z.YB
  XC := a ^ 3 * z.XC
  YC := a ^ 3 * z.YC
  XG := a ^ 2 * z.XG
  YG := a ^ 2 * z.YG
  YH := a ^ 3 * z.YH
  XM := a ^ 3 * z.XM
  YM := a ^ 3 * z.YM
  ZM := a ^ 3 * z.ZM

/-- Scalars of a pair `a` times as large. -/
def scaleZ (a : ℝ) (z : PairScalars) : PairScalars where
  XA i j := a * z.XA i j
  YA i j := a * z.YA i j
  YB i j := a ^ 2 * z.YB i j
  XC i j := a ^ 3 * z.XC i j
  YC i j := a ^ 3 * z.YC i j
  XG i j := a ^ 2 * z.XG i j
  YG i j := a ^ 2 * z.YG i j
  YH i j := a ^ 3 * z.YH i j
  XM i j := a ^ 3 * z.XM i j
  YM i j := a ^ 3 * z.YM i j
  ZM i j := a ^ 3 * z.ZM i j

theorem dimS_scale (z : Scalars) (a b : ℝ) : dimS z (a * b) = scaleS a (dimS z b) := by
  simp only [dimS, scaleS, Scalars.mk.injEq]
  refine ⟨?_, ?_, ?_, ?_, ?_, ?_, ?_, ?_, ?_, ?_, ?_⟩ <;> ring

theorem flipS_scale (z : Scalars) (a : ℝ) : flipS (scaleS a z) = scaleS a (flipS z) := by
  simp only [flipS, scaleS, Scalars.mk.injEq]
  refine ⟨?_, ?_, ?_, ?_, ?_, ?_, ?_, ?_, ?_, ?_, ?_⟩ <;> first | trivial | ring

theorem at_scale (a : ℝ) (z : PairScalars) (α β : Fin 2) : (scaleZ a z).at α β = scaleS a (z.at α β) := rfl

theorem scale_balanced {z : PairScalars} (h : Balanced z) (a : ℝ) : Balanced (scaleZ a z) := by
  constructor <;> simp only [scaleZ, h.XA, h.YA, h.XC, h.YC, h.XM, h.YM, h.ZM]

theorem kkA_mul (c X Y : ℝ) (d : Fin 3 → ℝ) (i j : Fin 3) : kkA (c * X) (c * Y) d i j = c * kkA X Y d i j := by
  simp only [kkA]; ring

theorem kkB_mul (c Y : ℝ) (d : Fin 3 → ℝ) (i j : Fin 3) : kkB (c * Y) d i j = c * kkB Y d i j := by
  simp only [kkB]; ring

theorem kkG_mul (c X Y : ℝ) (d : Fin 3 → ℝ) (i j k : Fin 3) : kkG (c * X) (c * Y) d i j k = c * kkG X Y d i j k := by
  simp only [kkG]; ring

theorem kkH_mul (c Y : ℝ) (d : Fin 3 → ℝ) (i j k : Fin 3) : kkH (c * Y) d i j k = c * kkH Y d i j k := by
  simp only [kkH]; ring

theorem kkM_mul (c X Y Z : ℝ) (d : Fin 3 → ℝ) (i j k l : Fin 3) :
    kkM (c * X) (c * Y) (c * Z) d i j k l = c * kkM X Y Z d i j k l := by
  simp only [kkM]; ring

/-- The resistance relation of spheres `a` times as large in a fluid of viscosity `mu`. -/
theorem resistance_scale {R : PairScalars} {d : Fin 3 → ℝ} {a mu : ℝ} (ha : a ≠ 0) (hmu : mu ≠ 0)
    {U O F T : Fin 2 → Fin 3 → ℝ} {E S : Fin 2 → Fin 3 → Fin 3 → ℝ} :
    Resistance (scaleZ a R) d U O E (fun x i => F x i / mu) (fun x i => T x i / mu) (fun x i j => S x i j / mu) ↔
      Resistance R d (fun x i => U x i / a) O E (fun x i => F x i / (mu * a ^ 2)) (fun x i => T x i / (mu * a ^ 3))
        (fun x i j => S x i j / (mu * a ^ 3)) := by
  have k2 : ∀ f : ℝ, f / (mu * a ^ 2) = f / mu / a ^ 2 := fun f => by field_simp
  have k3 : ∀ f : ℝ, f / (mu * a ^ 3) = f / mu / a ^ 3 := fun f => by field_simp
  have d2 : a ^ 2 ≠ 0 := pow_ne_zero _ ha
  have d3 : a ^ 3 ≠ 0 := pow_ne_zero _ ha
  have p2 : ∀ (f g : ℝ), f / a ^ 2 = g ↔ f = a ^ 2 * g := fun f g => by rw [div_eq_iff d2, mul_comm]
  have p3 : ∀ (f g : ℝ), f / a ^ 3 = g ↔ f = a ^ 3 * g := fun f g => by rw [div_eq_iff d3, mul_comm]
  have e1 : ∀ α i, (∑ β, ((∑ j, kkA ((scaleZ a R).XA α β) ((scaleZ a R).YA α β) d i j * U β j)
      + (∑ j, kkB ((scaleZ a R).YB β α) d j i * O β j)
      + 1 * ∑ j, ∑ k, kkG ((scaleZ a R).XG β α) ((scaleZ a R).YG β α) d j k i * E β j k))
      = a ^ 2 * ∑ β, ((∑ j, kkA (R.XA α β) (R.YA α β) d i j * (U β j / a))
      + (∑ j, kkB (R.YB β α) d j i * O β j) + 1 * ∑ j, ∑ k, kkG (R.XG β α) (R.YG β α) d j k i * E β j k) := by
    intro α i
    simp only [scaleZ, kkA_mul, kkB_mul, kkG_mul]
    rw [Finset.mul_sum]
    refine Finset.sum_congr rfl fun β _ => ?_
    simp only [mul_add, one_mul, Finset.mul_sum]
    refine congrArg₂ _ (congrArg₂ _ (Finset.sum_congr rfl fun j _ => ?_) (Finset.sum_congr rfl fun j _ => ?_))
      (Finset.sum_congr rfl fun j _ => Finset.sum_congr rfl fun k _ => ?_)
    · field_simp
    · ring
    · ring
  have e2 : ∀ α i, (∑ β, ((∑ j, kkB ((scaleZ a R).YB α β) d i j * U β j)
      + (∑ j, kkA ((scaleZ a R).XC α β) ((scaleZ a R).YC α β) d i j * O β j)
      + 1 * ∑ j, ∑ k, kkH ((scaleZ a R).YH β α) d j k i * E β j k))
      = a ^ 3 * ∑ β, ((∑ j, kkB (R.YB α β) d i j * (U β j / a))
      + (∑ j, kkA (R.XC α β) (R.YC α β) d i j * O β j) + 1 * ∑ j, ∑ k, kkH (R.YH β α) d j k i * E β j k) := by
    intro α i
    simp only [scaleZ, kkA_mul, kkB_mul, kkH_mul]
    rw [Finset.mul_sum]
    refine Finset.sum_congr rfl fun β _ => ?_
    simp only [mul_add, one_mul, Finset.mul_sum]
    refine congrArg₂ _ (congrArg₂ _ (Finset.sum_congr rfl fun j _ => ?_) (Finset.sum_congr rfl fun j _ => ?_))
      (Finset.sum_congr rfl fun j _ => Finset.sum_congr rfl fun k _ => ?_)
    · field_simp
    · ring
    · ring
  have e3 : ∀ α i j, (∑ β, ((∑ k, kkG ((scaleZ a R).XG α β) ((scaleZ a R).YG α β) d i j k * U β k)
      + (∑ k, kkH ((scaleZ a R).YH α β) d i j k * O β k)
      + ∑ k, ∑ l, kkM ((scaleZ a R).XM α β) ((scaleZ a R).YM α β) ((scaleZ a R).ZM α β) d i j k l * E β k l))
      = a ^ 3 * ∑ β, ((∑ k, kkG (R.XG α β) (R.YG α β) d i j k * (U β k / a))
      + (∑ k, kkH (R.YH α β) d i j k * O β k)
      + ∑ k, ∑ l, kkM (R.XM α β) (R.YM α β) (R.ZM α β) d i j k l * E β k l) := by
    intro α i j
    simp only [scaleZ, kkG_mul, kkH_mul, kkM_mul]
    rw [Finset.mul_sum]
    refine Finset.sum_congr rfl fun β _ => ?_
    simp only [mul_add, Finset.mul_sum]
    refine congrArg₂ _ (congrArg₂ _ (Finset.sum_congr rfl fun j _ => ?_) (Finset.sum_congr rfl fun j _ => ?_))
      (Finset.sum_congr rfl fun j _ => Finset.sum_congr rfl fun k _ => ?_)
    · field_simp
    · ring
    · ring
  constructor
  · intro h
    refine ⟨fun α i => ?_, fun α i => ?_, fun α i j => ?_⟩
    · rw [k2, p2]
      exact (h.first α i).trans (e1 α i)
    · rw [k3, p3]
      exact (h.second α i).trans (e2 α i)
    · rw [k3, p3]
      exact (h.third α i j).trans (e3 α i j)
  · intro h
    refine ⟨fun α i => ?_, fun α i => ?_, fun α i j => ?_⟩
    · have := h.first α i
      rw [k2, p2] at this
      exact this.trans (e1 α i).symm
    · have := h.second α i
      rw [k3, p3] at this
      exact this.trans (e2 α i).symm
    · have := h.third α i j
      rw [k3, p3] at this
      exact this.trans (e3 α i j).symm

/-! ## Condensed components -/

theorem kkM_swap (X Y Z : ℝ) (d : Fin 3 → ℝ) (i j k l : Fin 3) :
    kkM X Y Z d i j k l = kkM X Y Z d k l i j := by
  have dl : ∀ i j : Fin 3, dlt i j = dlt j i := by intro i j; simp [dlt, eq_comm]
  simp only [kkM]
  rw [dl i k, dl i l, dl j k, dl j l]
  ring

theorem symTraceless_sum {ι : Type*} (s : Finset ι) {f : ι → Fin 3 → Fin 3 → ℝ} (h : ∀ x ∈ s, SymTraceless (f x)) :
    SymTraceless fun i j => ∑ x ∈ s, f x i j := by
  constructor
  · intro i j
    exact Finset.sum_congr rfl fun x hx => (h x hx).1 i j
  · rw [← Finset.sum_add_distrib, ← Finset.sum_add_distrib]
    exact Finset.sum_eq_zero fun x hx => (h x hx).2

theorem symTraceless_mul {f : Fin 3 → Fin 3 → ℝ} (h : SymTraceless f) (c : ℝ) :
    SymTraceless fun i j => f i j * c :=
  ⟨fun i j => by show f i j * c = f j i * c; rw [h.1 i j], by have := h.2; linear_combination c * this⟩

theorem symTraceless_add {f g : Fin 3 → Fin 3 → ℝ} (h : SymTraceless f) (h' : SymTraceless g) :
    SymTraceless fun i j => f i j + g i j :=
  ⟨fun i j => by show f i j + g i j = f j i + g j i; rw [h.1 i j, h'.1 i j], by have := h.2; have := h'.2; linarith⟩

theorem third_symTraceless {R : PairScalars} {d : Fin 3 → ℝ} (hd : dotp d d = 1)
    {F T U O : Fin 2 → Fin 3 → ℝ} {E S : Fin 2 → Fin 3 → Fin 3 → ℝ}
    (h : Resistance R d U O E F T S) (α : Fin 2) : SymTraceless (S α) := by
  rw [show S α = fun i j => _ from funext fun i => funext fun j => h.third α i j]
  refine symTraceless_sum _ fun β _ => symTraceless_add (symTraceless_add
    (symTraceless_sum _ fun k _ => symTraceless_mul (kkG_symTraceless _ _ hd k) _)
    (symTraceless_sum _ fun k _ => symTraceless_mul (kkH_symTraceless _ d k) _))
    (symTraceless_sum _ fun k _ => symTraceless_sum _ fun l _ => symTraceless_mul ?_ _)
  have := kkM_symTraceless (R.XM α β) (R.YM α β) (R.ZM α β) hd k l
  rw [show kkM (R.XM α β) (R.YM α β) (R.ZM α β) d k l = fun i j => kkM (R.XM α β) (R.YM α β) (R.ZM α β) d i j k l from
    funext fun i => funext fun j => kkM_swap _ _ _ _ _ _ _ _] at this
  exact this

/-- The resistance relation is the relation between condensed components. -/
theorem comps_iff {R : PairScalars} {d : Fin 3 → ℝ} (hd : dotp d d = 1) {F T U O : Fin 2 → Fin 3 → ℝ}
    {E S : Fin 2 → Fin 3 → Fin 3 → ℝ} (hE : ∀ β, SymTraceless (E β)) (hS : ∀ β, SymTraceless (S β)) :
    Resistance R d U O E F T S ↔ ∀ α c, comps (F α) (T α) (S α) c = ∑ β, ((∑ j, full R d α β c (.f j) * U β j)
      + (∑ j, full R d α β c (.t j) * O β j) + ∑ q, full R d α β c (.s q) * five (E β) q) := by
  refine ⟨fun h α c => resistance_comps hd hE h α c, fun h => ?_⟩
  obtain ⟨F', T', S', h'⟩ : ∃ F' T' S', Resistance R d U O E F' T' S' :=
    ⟨_, _, _, fun _ _ => rfl, fun _ _ => rfl, fun _ _ _ => rfl⟩
  have key : ∀ α c, comps (F α) (T α) (S α) c = comps (F' α) (T' α) (S' α) c := fun α c =>
    (h α c).trans (resistance_comps hd hE h' α c).symm
  obtain rfl : F = F' := funext fun α => funext fun i => key α (.f i)
  obtain rfl : T = T' := funext fun α => funext fun i => key α (.t i)
  obtain rfl : S = S' := funext fun α => five_inj (hS α) (third_symTraceless hd h' α) (funext fun p => key α (.s p))
  exact h'

/-! ## Entries -/

theorem nearPair_full {R : PairScalars} (hR : Balanced R) {d : Fin 3 → ℝ} (hd : dotp d d = 1) {u v : Scalars}
    {a b : ℝ} (h01 : dimS u a = R.at 0 1) (h10 : flipS (dimS v b) = R.at 1 0) (first : Prop) [Decidable first]
    (c1 c2 : Comp) : nearPair u v first a b d c1 c2 = full R d 0 1 c1 c2 ∧
      nearPair v u first b a (fun i => -d i) c1 c2 = full R d 1 0 c1 c2 := by
  have hdd : (fun i => - -d i) = d := by funext i; simp
  have hsame : ∀ c1 c2, order c1 = order c2 → tens (R.at 0 1) d c2 c1 = tens (R.at 1 0) d c1 c2 := by
    intro c1 c2 ho
    rw [tens_symm _ hd c2 c1 ho.symm]
    cases c1 <;> cases c2 <;> first
      | (simp [order] at ho; done)
      | simp only [tens, PairScalars.at, hR.XA, hR.YA, hR.XC, hR.YC, hR.XM, hR.YM, hR.ZM]
  unfold nearPair full
  simp only [direct_tens, tens_flip, hdd, h01, h10]
  rcases lt_trichotomy (order c2) (order c1) with h | h | h
  · rw [if_pos (Or.inl h), if_pos (Or.inl h), if_pos h.le, if_pos h.le]; exact ⟨rfl, rfl⟩
  · rw [if_pos h.le, if_pos h.le]
    by_cases hf : first
    · rw [if_pos (Or.inr ⟨h, hf⟩), if_pos (Or.inr ⟨h, hf⟩)]; exact ⟨rfl, rfl⟩
    · rw [if_neg (by rintro (h' | h'); exacts [absurd h (by omega), hf h'.2]),
        if_neg (by rintro (h' | h'); exacts [absurd h (by omega), hf h'.2])]
      exact ⟨(hsame c2 c1 h).symm, hsame c1 c2 h.symm⟩
  · rw [if_neg (by omega), if_neg (by omega), if_neg (by omega), if_neg (by omega)]; exact ⟨rfl, rfl⟩

/-- The numbers of the two spheres. -/
def numbered (p q : ℕ) : Fin 2 → ℕ := ![p, q]

theorem sum_numbered {p q : ℕ} (h : p = 0 ∧ q = 1 ∨ p = 1 ∧ q = 0) (f : ℕ → ℝ) :
    ∑ u ∈ Finset.range 2, f u = ∑ y, f (numbered p q y) := by
  rw [Fin.sum_univ_two, Finset.sum_range_succ, Finset.sum_range_one]
  rcases h with ⟨rfl, rfl⟩ | ⟨rfl, rfl⟩
  · rfl
  · exact add_comm _ _

theorem pack_f {Ns Nd : ℕ} {u o ub hd : List Vec3} {e : List Mat3} {x : ℕ} (hx : x < Ns) (c : Comp) :
    pack Ns Nd u o e ub hd (row Ns x c) = comps (u.getD x 0) (o.getD x 0) (e.getD x 0) c := by
  cases c with
  | f i => rw [show row Ns x (.f i) = 3 * x + i by simp [row, hx]]; exact pack_u u o e ub hd hx i
  | t i => rw [show row Ns x (.t i) = 3 * Ns + (3 * x + i) by simp only [row]; omega]; exact pack_o u o e ub hd hx i
  | s i => rw [show row Ns x (.s i) = 6 * Ns + (5 * x + i) by simp only [row]; omega]; exact pack_e u o e ub hd hx i

/-- A matrix of two spheres, entry by entry the one of the two-sphere problem, relates motions and loads as the two-sphere
problem does. -/
theorem linRel_iff {R : PairScalars} {d : Fin 3 → ℝ} (hd : dotp d d = 1) {p q : ℕ}
    (hpq : p = 0 ∧ q = 1 ∨ p = 1 ∧ q = 0) {mu : ℝ} (hmu : mu ≠ 0) {M : ℕ → ℕ → ℝ}
    (hM : ∀ x y c1 c2, M (row 2 (numbered p q x) c1) (row 2 (numbered p q y) c2) = mu * full R d x y c1 c2)
    {Ua Oa Fa Ta Ub Hb Fb Db : List Vec3} {Ea Sa : List Mat3}
    (hE : ∀ x, SymTraceless (Ea.getD (numbered p q x) 0)) (hS : ∀ x, SymTraceless (Sa.getD (numbered p q x) 0)) :
    LinRel M (11 * 2 + 6 * 0) (pack 2 0 Ua Oa Ea Ub Hb) (pack 2 0 Fa Ta Sa Fb Db) ↔
      Resistance R d (fun x => Ua.getD (numbered p q x) 0) (fun x => Oa.getD (numbered p q x) 0)
        (fun x => Ea.getD (numbered p q x) 0) (fun x i => Fa.getD (numbered p q x) 0 i / mu)
        (fun x i => Ta.getD (numbered p q x) 0 i / mu) (fun x i j => Sa.getD (numbered p q x) 0 i j / mu) := by
  have lt : ∀ x, numbered p q x < 2 := by
    intro x
    rcases hpq with ⟨rfl, rfl⟩ | ⟨rfl, rfl⟩ <;> fin_cases x <;> decide
  have onto : ∀ u < 2, ∃ x, u = numbered p q x := by
    intro u hu
    rcases hpq with ⟨rfl, rfl⟩ | ⟨rfl, rfl⟩ <;> interval_cases u
    exacts [⟨0, rfl⟩, ⟨1, rfl⟩, ⟨1, rfl⟩, ⟨0, rfl⟩]
  have hS' : ∀ x, SymTraceless fun i j => Sa.getD (numbered p q x) 0 i j / mu := fun x =>
    ⟨fun i j => congrArg (· / mu) ((hS x).1 i j), by have := (hS x).2; field_simp; linarith⟩
  rw [comps_iff hd hE hS']
  have lhs : ∀ x c, ∑ j ∈ Finset.range (11 * 2 + 6 * 0), M (row 2 (numbered p q x) c) j * pack 2 0 Ua Oa Ea Ub Hb j
      = mu * ∑ y, ((∑ j, full R d x y c (.f j) * Ua.getD (numbered p q y) 0 j)
        + (∑ j, full R d x y c (.t j) * Oa.getD (numbered p q y) 0 j)
        + ∑ r, full R d x y c (.s r) * five (Ea.getD (numbered p q y) 0) r) := by
    intro x c
    rw [sum_rows 2 0, show 2 + 2 * 0 = 2 from rfl, ← Finset.sum_add_distrib, sum_numbered hpq, Finset.mul_sum]
    refine Finset.sum_congr rfl fun y _ => ?_
    simp only [hM, pack_f (lt y), comps]
    simp only [mul_add, Finset.mul_sum, mul_assoc, add_assoc]
  have rhs : ∀ x c, pack 2 0 Fa Ta Sa Fb Db (row 2 (numbered p q x) c)
      = mu * comps (fun i => Fa.getD (numbered p q x) 0 i / mu) (fun i => Ta.getD (numbered p q x) 0 i / mu)
        (fun i j => Sa.getD (numbered p q x) 0 i j / mu) c := by
    intro x c
    rw [pack_f (lt x)]
    cases c with
    | f i => show _ = mu * (_ / mu); field_simp; rfl
    | t i => show _ = mu * (_ / mu); field_simp; rfl
    | s i =>
      simp only [comps]
      fin_cases i <;> simp only [five, Matrix.cons_val, Fin.zero_eta, Fin.mk_one, Fin.reduceFinMk] <;> field_simp
  constructor
  · intro h x c
    have := h _ (row_lt (Ns := 2) (Nd := 0) (u := numbered p q x) (c := c) (by cases c <;> simpa [HasRow] using lt x))
    rw [lhs, rhs] at this
    exact (mul_left_cancel₀ hmu this).symm
  · intro h i hi
    obtain ⟨u, c, hu, rfl⟩ := row_surj (Ns := 2) (Nd := 0) hi
    obtain ⟨x, rfl⟩ := onto u (by cases c <;> simpa [HasRow] using hu)
    rw [lhs, rhs, h x c]

theorem systemNear_two {p q : ℕ} (hpq : p = 0 ∧ q = 1 ∨ p = 1 ∧ q = 0) {bb : Bool} {rad : ℕ → ℝ}
    {scal : ℕ → ℝ → ℝ → Scalars} {link : ℕ → ℕ → Option ((Fin 3 → ℝ) × ℝ)} {d d' : Fin 3 → ℝ} {s : ℝ}
    (h : link p q = some (d, s)) (h' : link q p = some (d', s)) (c1 c2 : Comp) :
    systemNear 2 2 bb rad scal link p c1 p c2 = nearSelf (scal 0 (rad q / rad p) s) (rad p) d c1 c2 ∧
    systemNear 2 2 bb rad scal link q c1 q c2 = nearSelf (scal 0 (rad p / rad q) s) (rad q) d' c1 c2 ∧
    systemNear 2 2 bb rad scal link p c1 q c2
      = nearPair (scal 1 (rad q / rad p) s) (scal 1 (rad p / rad q) s) (p < q) (rad p) (rad q) d c1 c2 ∧
    systemNear 2 2 bb rad scal link q c1 p c2
      = nearPair (scal 1 (rad p / rad q) s) (scal 1 (rad q / rad p) s) (q < p) (rad q) (rad p) d' c1 c2 := by
  have hne : p ≠ q := by omega
  have hb : ∀ x y, x < 2 → ¬ (bb = false ∧ 2 ≤ x ∧ 2 ≤ y) := fun x y hx hh => by omega
  have hp : p < 2 := by omega
  have hq : q < 2 := by omega
  unfold systemNear
  refine ⟨?_, ?_, ?_, ?_⟩
  · rw [if_pos rfl, sum_numbered hpq, Fin.sum_univ_two]
    show (if p = p then (0 : ℝ) else _) + (if q = p then (0 : ℝ) else _) = _
    rw [if_pos rfl, if_neg hne.symm, zero_add]
    simp only [numbered, Matrix.cons_val_zero, Matrix.cons_val_one, h]
  · rw [if_pos rfl, sum_numbered hpq, Fin.sum_univ_two]
    show (if p = q then (0 : ℝ) else _) + (if q = q then (0 : ℝ) else _) = _
    rw [if_pos rfl, if_neg hne, add_zero]
    simp only [numbered, Matrix.cons_val_zero, Matrix.cons_val_one, h']
  · rw [if_neg hne, if_neg (hb _ _ hp), h]
  · rw [if_neg hne.symm, if_neg (hb _ _ hq), h']

theorem nearSelf_full {R : PairScalars} {d : Fin 3 → ℝ} {u : Scalars} {a : ℝ} {α : Fin 2} (h : dimS u a = R.at α α)
    (c1 c2 : Comp) : nearSelf u a d c1 c2 = full R d α α c1 c2 := by
  unfold nearSelf full
  simp only [direct_tens, h]

theorem nearSelf_full' {R : PairScalars} {d : Fin 3 → ℝ} {u : Scalars} {a : ℝ} {α : Fin 2}
    (h : flipS (dimS u a) = R.at α α) (c1 c2 : Comp) :
    nearSelf u a (fun i => -d i) c1 c2 = full R d α α c1 c2 := by
  unfold nearSelf full
  simp only [direct_tens, tens_flip, h]

/-- The two columns of the midfield table for one distance and one ratio hold the resistance scalars of the two spheres. -/
theorem midfield_at {run : ℝ → ℝ → FCase → ℕ → ℝ} {mm lams : List ℝ} {M : ScalarTable}
    (h : midfield_table run mm lams = some M) (hpos : ∀ lam ∈ lams, 0 < lam ∧ lam ≤ 1) {lam : ℝ} (hlam : lam ∈ lams)
    {n l l' : ℕ} (hn : n < mm.length) {z : PairScalars} (hz : SolvesMobility z (run lam (mm.getD n 0)))
    (hx : lam = 1 → exchange z = z) (e : M.lam.getD l 0 = lam) (e' : M.lam.getD l' 0 = 1 / lam) :
    ∃ R, convert_dim_kim_mobility_to_dim_resistance z = some R ∧
      dimS (cellScalars M 0 n l) 1 = R.at 0 0 ∧ dimS (cellScalars M 1 n l) 1 = R.at 0 1 ∧
      flipS (dimS (cellScalars M 0 n l') lam) = R.at 1 1 ∧ flipS (dimS (cellScalars M 1 n l') lam) = R.at 1 0 := by
  unfold midfield_table at h
  rw [Option.bind_eq_bind, Option.bind_eq_some_iff] at h
  obtain ⟨tab, ht, h⟩ := h
  have h := (Option.some.inj h).symm
  have hML : M.lam = Nearfield.with_reciprocals lams := by rw [h]
  have cell : ∀ g q m, M.lam.getD m 0 = q → cellScalars M g n m
      = ofColumn fun k => midfieldCell lams (fun i => (tab.getD i []).getD n fun _ => 0) q k g := by
    intro g q m hq
    rw [hML] at hq
    rw [h]
    simp only [cellScalars, ofColumn, hq]
  rw [cell 0 _ l e, cell 1 _ l e, cell 0 _ l' e', cell 1 _ l' e']
  obtain ⟨p0, p1⟩ := hpos _ hlam
  have hi : lams.idxOf lam < lams.length := List.idxOf_lt_length_iff.mpr hlam
  have h1 := mapM_getD _ 0 [] _ _ ht _ hi
  have h2 := mapM_getD _ 0 (fun _ => 0) _ _ h1 n hn
  rw [List.getD_eq_getElem _ _ hi, List.getElem_idxOf hi] at h2
  unfold XYZ_column at h2
  rw [C45_decode hz, Option.bind_eq_bind, Option.bind_eq_some_iff] at h2
  obtain ⟨R, hR, h2⟩ := h2
  obtain ⟨g1, g2, g3, g4⟩ := columns_at (Option.some.inj h2).symm p0
  have e1 : ∀ g k, midfieldCell lams (fun i => (tab.getD i []).getD n fun _ => 0) lam k g
      = generalColumn ((tab.getD (lams.idxOf lam) []).getD n fun _ => 0) k g := fun g k => if_pos hlam
  refine ⟨R, hR, by simp only [e1]; exact g1, by simp only [e1]; exact g2, ?_⟩
  rcases eq_or_lt_of_le p1 with p1 | p1
  · obtain ⟨x1, x2⟩ := convert_exchange hR (hx p1)
    subst p1
    simp only [one_div_one, e1]
    exact ⟨by rw [g1]; exact x1, by rw [g2]; exact x2⟩
  · have hno : 1 / lam ∉ lams := fun hm => by
      have := (hpos _ hm).2
      rw [div_le_one p0] at this
      linarith
    have e2 : ∀ g k, midfieldCell lams (fun i => (tab.getD i []).getD n fun _ => 0) (1 / lam) k g
        = reciprocalColumn (1 / lam) ((tab.getD (lams.idxOf lam) []).getD n fun _ => 0) k g := by
      intro g k
      unfold midfieldCell
      rw [if_neg hno, one_div_one_div]
    simp only [e2]
    exact ⟨g3, g4⟩

theorem nodup_with_reciprocals {lams : List ℝ} (h : lams.Nodup) : (Nearfield.with_reciprocals lams).Nodup := by
  unfold Nearfield.with_reciprocals
  rw [(List.mergeSort_perm _ _).nodup_iff, List.nodup_append]
  refine ⟨h, List.Nodup.filter _ (h.map fun x y hxy => ?_), ?_⟩
  · simpa using hxy
  · intro a ha b hb hab
    simp only [List.mem_filter, decide_eq_true_eq] at hb
    exact hb.2 (hab ▸ ha)

/-- If the two-sphere problem dissipates, a matrix that is the one of the two-sphere problem is positive definite. -/
theorem posDef_of {z R : PairScalars} (hR : convert_dim_kim_mobility_to_dim_resistance z = some R) (hb : Balanced z)
    (hD : PairDissipates z) {d : Fin 3 → ℝ} (hd : dotp d d = 1) {p q : ℕ}
    (hpq : p = 0 ∧ q = 1 ∨ p = 1 ∧ q = 0) {mu a : ℝ} (hmu : 0 < mu) (ha : 0 < a) {M : ℕ → ℕ → ℝ}
    (hM : ∀ x y c1 c2, M (row 2 (numbered p q x) c1) (row 2 (numbered p q y) c2)
      = mu * full (scaleZ a R) d x y c1 c2) : PosDef M (11 * 2 + 6 * 0) := by
  intro w hw
  have lt : ∀ x, numbered p q x < 2 := by
    intro x
    rcases hpq with ⟨rfl, rfl⟩ | ⟨rfl, rfl⟩ <;> fin_cases x <;> decide
  have onto : ∀ u < 2, ∃ x, u = numbered p q x := by
    intro u hu
    rcases hpq with ⟨rfl, rfl⟩ | ⟨rfl, rfl⟩ <;> interval_cases u
    exacts [⟨0, rfl⟩, ⟨1, rfl⟩, ⟨1, rfl⟩, ⟨0, rfl⟩]
  let U : Fin 2 → Fin 3 → ℝ := fun x i => w (row 2 (numbered p q x) (.f i))
  let O : Fin 2 → Fin 3 → ℝ := fun x i => w (row 2 (numbered p q x) (.t i))
  let E : Fin 2 → Fin 3 → Fin 3 → ℝ := fun x => uncondenseOne fun r => w (row 2 (numbered p q x) (.s r))
  have hE : ∀ x, SymTraceless (E x) := fun x => uncondense_symTraceless _
  have hE5 : ∀ x r, five (E x) r = w (row 2 (numbered p q x) (.s r)) := fun x r => by
    show five (uncondenseOne _) r = _
    rw [five_uncondense]
  obtain ⟨F, T, S, h⟩ : ∃ F T S, Resistance (scaleZ a R) d U O E F T S :=
    ⟨_, _, _, fun _ _ => rfl, fun _ _ => rfl, fun _ _ _ => rfl⟩
  have hS := third_symTraceless hd h
  have hc := resistance_comps hd hE h
  have hrow : ∀ x c, ∑ j ∈ Finset.range (11 * 2 + 6 * 0), M (row 2 (numbered p q x) c) j * w j
      = mu * comps (F x) (T x) (S x) c := by
    intro x c
    rw [hc, sum_rows 2 0, show 2 + 2 * 0 = 2 from rfl, ← Finset.sum_add_distrib, sum_numbered hpq, Finset.mul_sum]
    refine Finset.sum_congr rfl fun y _ => ?_
    simp only [hM, hE5]
    simp only [mul_add, Finset.mul_sum, mul_assoc, add_assoc]
    rfl
  have hform : ∑ i ∈ Finset.range (11 * 2 + 6 * 0), ∑ j ∈ Finset.range (11 * 2 + 6 * 0), w i * M i j * w j
      = mu * twoPower F T S U O E := by
    have e0 : ∀ i, ∑ j ∈ Finset.range (11 * 2 + 6 * 0), w i * M i j * w j
        = w i * ∑ j ∈ Finset.range (11 * 2 + 6 * 0), M i j * w j := by
      intro i
      rw [Finset.mul_sum]
      exact Finset.sum_congr rfl fun j _ => mul_assoc _ _ _
    rw [Finset.sum_congr rfl fun i _ => e0 i, sum_rows 2 0, show 2 + 2 * 0 = 2 from rfl, ← Finset.sum_add_distrib,
      sum_numbered hpq, twoPower, Finset.mul_sum]
    refine Finset.sum_congr rfl fun x _ => ?_
    rw [← five_contract (hS x) (hE x)]
    simp only [hrow, hE5, comps, mul_add, Finset.mul_sum, add_assoc]
    refine congrArg₂ _ (Finset.sum_congr rfl fun i _ => ?_) (congrArg₂ _ (Finset.sum_congr rfl fun i _ => ?_)
      (Finset.sum_congr rfl fun i _ => ?_))
    · show _ = mu * (F x i * w _); ring
    · show _ = mu * (T x i * w _); ring
    · ring
  rw [hform]
  refine mul_pos hmu ?_
  have h1 := (resistance_scale (mu := 1) ha.ne' one_ne_zero (R := R) (d := d) (U := U) (O := O) (F := F) (T := T)
    (E := E) (S := S)).mp (by simpa using h)
  have h2 := (C45_inverse hR hb.XA hb.YA hb.YC hd _ _ _ _ hE _).mpr h1
  have h3 := hD d hd _ _ _ _ _ _ hE h2 ?_
  · have : twoPower F T S U O E = a ^ 3 * twoPower (fun x i => F x i / (1 * a ^ 2)) (fun x i => T x i / (1 * a ^ 3))
        (fun x i j => S x i j / (1 * a ^ 3)) (fun x i => U x i / a) O E := by
      simp only [twoPower, Finset.mul_sum, mul_add]
      refine Finset.sum_congr rfl fun x _ => congrArg₂ _ (congrArg₂ _ (Finset.sum_congr rfl fun i _ => ?_)
        (Finset.sum_congr rfl fun i _ => ?_)) (Finset.sum_congr rfl fun i _ => Finset.sum_congr rfl fun j _ => ?_)
      · field_simp
      · field_simp
      · field_simp
    rw [this]
    exact mul_pos (pow_pos ha 3) h3
  · obtain ⟨i, hi, hne⟩ := hw
    obtain ⟨u, c, hu, rfl⟩ := row_surj (Ns := 2) (Nd := 0) hi
    obtain ⟨x, rfl⟩ := onto u (by cases c <;> simpa [HasRow] using hu)
    refine ⟨x, ?_⟩
    cases c with
    | f i => exact .inl fun h0 => hne (by
        have := congrFun h0 i
        have h' : U x i / a = 0 := this
        rcases div_eq_zero_iff.mp h' with h' | h'
        exacts [h', absurd h' ha.ne'])
    | t i => exact .inr (.inl fun h0 => hne (congrFun h0 i))
    | s r => exact .inr (.inr fun h0 => hne (by rw [← hE5, h0]; fin_cases r <;> simp [five]))

end SD.Pair
