import Verif.Model.R2B
import Verif.Spec.NearField
import Verif.Lemmas.FarField
import Verif.Lemmas.Minfinity

/-!
# The near-field pair tensors in vector form
-/

set_option autoImplicit false

namespace SD

open Spec

/-- The scalars at one table index. -/
noncomputable def scalarsAt (T : ScalarTable) (g : ℕ) (s : ℝ) (l : ℕ) : Scalars where
  XA := XYZ T 0 g s l
  YA := XYZ T 1 g s l
  YB := XYZ T 2 g s l
  XC := XYZ T 3 g s l
  YC := XYZ T 4 g s l
  XG := XYZ T 5 g s l
  YG := XYZ T 6 g s l
  YH := XYZ T 7 g s l
  XM := XYZ T 8 g s l
  YM := XYZ T 9 g s l
  ZM := XYZ T 10 g s l

theorem L3_cross (d : Vec3) (i j : Fin 3) : L3 d i j = cross (unit j) d i := by
  fin_cases i <;> fin_cases j <;> simp [L3, cross, unit, dlt, levi, Fin.sum_univ_three]

theorem L6_cross (d : Vec3) (i j k : Fin 3) :
    L6 d i j k = cross (unit k) d i * d j + d i * cross (unit k) d j := by
  fin_cases i <;> fin_cases j <;> fin_cases k <;>
    simp [L6, cross, unit, dlt, levi, Fin.sum_univ_three] <;> ring

theorem dotp_unit (d : Vec3) (j : Fin 3) : dotp d (unit j) = d j := by
  fin_cases j <;> simp [dotp, unit, dlt]

theorem kron_dlt : kron = dlt := rfl

section
variable (T : ScalarTable) (g : ℕ) (d : Vec3) (l : ℕ) (s a : ℝ)

theorem Af_direct (i j : Fin 3) : Af T g d l s i j * (6 * Real.pi * a)
    = nearDirect (scalarsAt T g s l) a d (.f i) (.f j) := by
  simp only [Af, L1, L2, nearDirect, nearForce, scalarsAt, dotp_unit, kron_dlt, unit]; ring

theorem Bf_direct (i j : Fin 3) : Bf T g d l s i j * (4 * Real.pi * a ^ 2)
    = nearDirect (scalarsAt T g s l) a d (.t i) (.f j) := by
  simp only [Bf, L3_cross, nearDirect, nearTorque, scalarsAt, dotp, Pi.zero_apply]; ring

theorem Cf_direct (i j : Fin 3) : Cf T g d l s i j * (8 * Real.pi * a ^ 3)
    = nearDirect (scalarsAt T g s l) a d (.t i) (.t j) := by
  have : cross 0 d i = 0 := by fin_cases i <;> simp [cross]
  simp only [Cf, L1, L2, nearDirect, nearTorque, scalarsAt, dotp_unit, kron_dlt, unit, this]; ring

theorem app_zero (i : Fin 3) : app 0 d i = 0 := by simp [app, dotp]

theorem cross_zero (i : Fin 3) : cross 0 d i = 0 := by fin_cases i <;> simp [cross]

theorem Gf_stress (i j k : Fin 3) : Gf T g d l s i j k * (4 * Real.pi * a ^ 2)
    = nearStress (scalarsAt T g s l) a d (unit k) 0 0 i j := by
  have h0 : dotp d (app 0 d) = 0 := by simp [dotp, app]
  simp only [Gf, L4, L5, nearStress, scalarsAt, dotp_unit, app_zero, cross_zero, kron_dlt, h0, unit,
    Pi.zero_apply]
  ring

theorem Hf_stress (i j k : Fin 3) : Hf T g d l s i j k * (8 * Real.pi * a ^ 3)
    = nearStress (scalarsAt T g s l) a d 0 (unit k) 0 i j := by
  simp only [Hf, L6_cross, nearStress, scalarsAt, app_zero, dotp, Pi.zero_apply]; ring

theorem con_Gf_five (i : Fin 3) : con_Gf_row T g d l s i = five fun j k => Gf T g d l s j k i := by
  funext p
  fin_cases p <;> simp [con_Gf_row, five, hs3p1, hs3m1, s2] <;> ring

theorem con_Hf_five (i : Fin 3) : con_Hf_row T g d l s i = five fun j k => Hf T g d l s j k i := by
  funext p
  fin_cases p <;> simp [con_Hf_row, five, hs3p1, hs3m1, s2] <;> ring

theorem five_mul' (c : ℝ) (X : Fin 3 → Fin 3 → ℝ) (p : Fin 5) :
    five X p * c = five (fun i j => X i j * c) p := by
  simp only [mul_comm _ c, five_mul]

theorem con_Gf_direct (j : Fin 3) (p : Fin 5) : con_Gf_row T g d l s j p * (4 * Real.pi * a ^ 2)
    = nearDirect (scalarsAt T g s l) a d (.s p) (.f j) := by
  rw [con_Gf_five, five_mul']
  simp only [Gf_stress]; rfl

theorem con_Hf_direct (j : Fin 3) (p : Fin 5) : con_Hf_row T g d l s j p * (8 * Real.pi * a ^ 3)
    = nearDirect (scalarsAt T g s l) a d (.s p) (.t j) := by
  rw [con_Hf_five, five_mul']
  simp only [Hf_stress]; rfl

/-- Contraction of the fourth-order tensor with a symmetric traceless matrix. -/
theorem Mf_stress {E : Fin 3 → Fin 3 → ℝ} (hE : SymTraceless E) (i j : Fin 3) :
    (∑ k, ∑ m, E k m * Mf T g d l s i j k m) * (20 / 3 * Real.pi * a ^ 3)
      = nearStress (scalarsAt T g s l) a d 0 0 E i j := by
  have e10 := hE.1 1 0
  have e20 := hE.1 2 0
  have e21 := hE.1 2 1
  have e22 : E 2 2 = -E 0 0 - E 1 1 := by linarith [hE.2]
  simp only [Fin.sum_univ_three, Mf, L7, L8, L9, nearStress, cross_zero, scalarsAt, app, dotp, e10, e20,
    e21, e22, Pi.zero_apply]
  fin_cases i <;> fin_cases j <;> simp [kron, dlt] <;> (try rw [e10]) <;> (try rw [e20]) <;>
    (try rw [e21]) <;> (try rw [e22]) <;> ring

/-- The fourth-order tensor is symmetric and traceless in its last pair of indices. -/
theorem Mf_symTraceless (hd : dotp d d = 1) (i j : Fin 3) : SymTraceless (Mf T g d l s i j) := by
  constructor
  · intro k m
    simp only [Mf, L7, L8, L9]
    have : kron k m = kron m k := by simp only [kron, eq_comm]
    rw [this]; ring
  · have key : Mf T g d l s i j 0 0 + Mf T g d l s i j 1 1 + Mf T g d l s i j 2 2
        = (XYZ T 8 g s l * (3 / 2) * (d i * d j - kron i j / 3) - XYZ T 9 g s l * 2 * (d i * d j)
          + XYZ T 10 g s l / 2 * (kron i j + d i * d j)) * (dotp d d - 1) := by
      simp only [Mf, L7, L8, L9, dotp]
      fin_cases i <;> fin_cases j <;> simp [kron] <;> ring
    rw [key, hd]; ring

theorem Mf_direct (hd : dotp d d = 1) (p q : Fin 5) :
    condense55 (Mf T g d l s) p q * (20 / 3 * Real.pi * a ^ 3)
      = nearDirect (scalarsAt T g s l) a d (.s p) (.s q) := by
  rw [condense55_five, five_mul']
  have : ∀ i j, five (fun k m => Mf T g d l s i j k m) q * (20 / 3 * Real.pi * a ^ 3)
      = nearStress (scalarsAt T g s l) a d 0 0 (basis5 q) i j := by
    intro i j
    rw [← Mf_stress T g d l s a (basis5_symm q) i j, ← basis5_contract _ (Mf_symTraceless T g d l s hd i j)]
  simp only [this]; rfl

end

/-! ## Symmetry and parity -/

/-- Loads of equal order are reciprocal. -/
theorem nearDirect_symm (z : Scalars) (a : ℝ) {d : Vec3} (hd : dotp d d = 1) (c1 c2 : Comp)
    (h : order c1 = order c2) : nearDirect z a d c1 c2 = nearDirect z a d c2 c1 := by
  cases c1 <;> cases c2 <;> simp only [order] at h <;> try omega
  · rename_i i j
    have : dlt i j = dlt j i := by simp only [dlt, eq_comm]
    simp only [nearDirect, nearForce, dotp_unit, unit, this]; ring
  · rename_i i j
    have : dlt i j = dlt j i := by simp only [dlt, eq_comm]
    simp only [nearDirect, nearTorque, dotp_unit, unit, this, cross_zero]; ring
  · rename_i p q
    let T : ScalarTable := ⟨[0], [0], fun k _ _ _ => match k with
      | 0 => z.XA | 1 => z.YA | 2 => z.YB | 3 => z.XC | 4 => z.YC | 5 => z.XG | 6 => z.YG | 7 => z.YH
      | 8 => z.XM | 9 => z.YM | _ => z.ZM⟩
    have hz : scalarsAt T 0 0 0 = z := by
      simp [scalarsAt, XYZ, npInterp, T]
    rw [← hz, ← Mf_direct T 0 d 0 0 a hd, ← Mf_direct T 0 d 0 0 a hd, condense55_five, condense55_five]
    have e : ∀ i j k m, Mf T 0 d 0 0 i j k m = Mf T 0 d 0 0 k m i j := by
      intro i j k m
      have k1 : ∀ x y, kron x y = kron y x := fun x y => by simp only [kron, eq_comm]
      simp only [Mf, L7, L8, L9]
      rw [k1 k i, k1 m j, k1 m i, k1 k j]; ring
    congr 1
    fin_cases p <;> fin_cases q <;> simp [five] <;>
      simp only [e 1 1 0 0, e 0 1 0 0, e 0 2 0 0, e 1 2 0 0, e 1 1 0 1, e 0 2 0 1, e 1 2 0 1, e 0 2 1 1,
        e 1 2 1 1, e 1 2 0 2] <;> ring

theorem nearDirect_neg_odd (z : Scalars) (a : ℝ) (d : Vec3) {c1 c2 : Comp}
    (h : order c1 = 1 ∧ order c2 = 0 ∨ order c1 = 2 ∧ order c2 = 0) :
    nearDirect z a (fun i => -d i) c1 c2 = -nearDirect z a d c1 c2 := by
  cases c1 <;> cases c2 <;> simp only [order] at h <;> try omega
  · rename_i i j
    fin_cases i <;> fin_cases j <;> simp [nearDirect, nearTorque, cross, dotp, unit, dlt]
  · rename_i p j
    have : nearStress z a (fun i => -d i) (unit j) 0 0 = fun i k => (-1) * nearStress z a d (unit j) 0 0 i k := by
      funext i k
      simp only [nearStress, app_zero, cross_zero, dotp, Pi.zero_apply]; ring
    simp only [nearDirect]
    rw [this, five_mul]; ring

theorem nearDirect_neg_even (z : Scalars) (a : ℝ) (d : Vec3) {c1 c2 : Comp}
    (h : order c1 = order c2 ∨ order c1 = 2 ∧ order c2 = 1) :
    nearDirect z a (fun i => -d i) c1 c2 = nearDirect z a d c1 c2 := by
  have hc : ∀ (x : Vec3) i, cross x (fun i => -d i) i = -cross x d i := by
    intro x i; fin_cases i <;> simp [cross] <;> ring
  have ha : ∀ (E : Fin 3 → Fin 3 → ℝ) i, app E (fun i => -d i) i = -app E d i := by
    intro E i; simp only [app, dotp]; ring
  cases c1 <;> cases c2 <;> simp only [order] at h <;> (try omega) <;>
    simp only [nearDirect, nearForce, nearTorque, dotp_unit, hc, cross_zero]
  · ring
  · ring
  · congr 1; funext i k
    simp only [nearStress, hc, ha, app_zero, dotp, Pi.zero_apply]; ring
  · congr 1; funext i k
    simp only [nearStress, hc, ha, cross_zero, dotp, Pi.zero_apply]; ring

end SD
