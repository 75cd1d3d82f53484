import Verif.Spec.NearDissipation
import Verif.Lemmas.NearTurn
import Verif.Lemmas.Positive

/-!
The power of a near-field pair splits into four kinds of motion.
-/

set_option autoImplicit false

namespace SD.Near

open SD SD.Spec SD.Cov

/-- Velocity, angular velocity and rate of strain of a motion. -/
def vel (w : Comp → ℝ) (i : Fin 3) : ℝ := w (.f i)
def spin (w : Comp → ℝ) (i : Fin 3) : ℝ := w (.t i)
noncomputable def strain (w : Comp → ℝ) (i j : Fin 3) : ℝ := ∑ p, w (.s p) * basis5 p i j

theorem strain_symm (w : Comp → ℝ) : SymTraceless (strain w) := by
  constructor
  · intro i j
    exact Finset.sum_congr rfl fun p _ => by rw [(basis5_symm p).1 i j]
  · unfold strain
    rw [← Finset.sum_add_distrib, ← Finset.sum_add_distrib]
    exact Finset.sum_eq_zero fun p _ => by rw [← mul_add, ← mul_add, (basis5_symm p).2, mul_zero]

theorem five_contract (w : Comp → ℝ) {S : Fin 3 → Fin 3 → ℝ} (hS : SymTraceless S) :
    ∑ p, w (.s p) * five S p = ∑ i, ∑ j, strain w i j * S i j := by
  unfold strain
  simp only [Finset.sum_mul]
  have : ∀ p, w (.s p) * five S p = ∑ i, ∑ j, w (.s p) * basis5 p i j * S i j := by
    intro p
    rw [← basis5_contract S hS p, Finset.mul_sum]
    refine Finset.sum_congr rfl fun i _ => ?_
    rw [Finset.mul_sum]
    exact Finset.sum_congr rfl fun j _ => by ring
  rw [Finset.sum_congr rfl fun p _ => this p, Finset.sum_comm]
  refine Finset.sum_congr rfl fun i _ => ?_
  rw [Finset.sum_comm]

/-- Contraction of two tensors. -/
def ddot (X Y : Fin 3 → Fin 3 → ℝ) : ℝ := ∑ i, ∑ j, X i j * Y i j

section
variable (z : Scalars) (a : ℝ) (d : Fin 3 → ℝ) (w1 w2 : Comp → ℝ)

theorem blockFF : ∑ i, ∑ j, w1 (.f i) * nearDirect z a d (.f i) (.f j) * w2 (.f j)
    = 6 * Real.pi * a * (z.XA * (dotp d (vel w1) * dotp d (vel w2))
      + z.YA * (dotp (vel w1) (vel w2) - dotp d (vel w1) * dotp d (vel w2))) := by
  simp [Fin.sum_univ_three, nearDirect, nearForce, dotp, unit, dlt, vel]
  ring

theorem blockTF : ∑ i, ∑ j, w1 (.t i) * nearDirect z a d (.t i) (.f j) * w2 (.f j)
    = 4 * Real.pi * a ^ 2 * (z.YB * dotp (vel w2) (cross d (spin w1))) := by
  simp [Fin.sum_univ_three, nearDirect, nearTorque, dotp, cross, unit, dlt, vel, spin]
  ring

theorem blockTT : ∑ i, ∑ j, w1 (.t i) * nearDirect z a d (.t i) (.t j) * w2 (.t j)
    = 8 * Real.pi * a ^ 3 * (z.XC * (dotp d (spin w1) * dotp d (spin w2))
      + z.YC * (dotp (spin w1) (spin w2) - dotp d (spin w1) * dotp d (spin w2))) := by
  simp [Fin.sum_univ_three, nearDirect, nearTorque, dotp, cross, unit, dlt, spin]
  ring

variable (hd : dotp d d = 1)
include hd

omit hd in
theorem blockS {S : Fin 3 → Fin 5 → ℝ} {X : Fin 3 → Fin 3 → Fin 3 → ℝ} (hX : ∀ j, SymTraceless (X j))
    (hS : ∀ j p, S j p = five (X j) p) (v : Fin 3 → ℝ) :
    ∑ p, ∑ j, w1 (.s p) * S j p * v j = ∑ j, ddot (strain w1) (X j) * v j := by
  rw [Finset.sum_comm]
  refine Finset.sum_congr rfl fun j _ => ?_
  rw [← Finset.sum_mul]
  congr 1
  rw [ddot, ← five_contract w1 (hX j)]
  exact Finset.sum_congr rfl fun p _ => by rw [hS]

omit hd in
theorem zero_symm : SymTraceless (0 : Fin 3 → Fin 3 → ℝ) := ⟨fun _ _ => rfl, by simp⟩

omit hd in
theorem ddot_SF {E : Fin 3 → Fin 3 → ℝ} (hE : SymTraceless E) (U : Fin 3 → ℝ) :
    ∑ j, ddot E (nearStress z a d (unit j) 0 0) * U j
      = 4 * Real.pi * a ^ 2 * (z.XG * (dotp d (app E d) * dotp d U)
        + z.YG * (2 * (dotp (app E d) U - dotp d (app E d) * dotp d U))) := by
  have e22 : E 2 2 = -E 0 0 - E 1 1 := by have := hE.2; linarith
  simp only [ddot, Fin.sum_univ_three, nearStress, dotp, cross, app, unit, dlt, hE.1 1 0, hE.1 2 0, hE.1 2 1, e22]
  simp
  ring

omit hd in
theorem ddot_ST {E : Fin 3 → Fin 3 → ℝ} (hE : SymTraceless E) (O : Fin 3 → ℝ) :
    ∑ j, ddot E (nearStress z a d 0 (unit j) 0) * O j
      = -(8 * Real.pi * a ^ 3 * (z.YH * (2 * dotp (app E d) (cross d O)))) := by
  have e22 : E 2 2 = -E 0 0 - E 1 1 := by have := hE.2; linarith
  simp only [ddot, Fin.sum_univ_three, nearStress, dotp, cross, app, unit, dlt, hE.1 1 0, hE.1 2 0, hE.1 2 1, e22]
  simp
  ring

omit hd in
theorem ddot_SS {E F : Fin 3 → Fin 3 → ℝ} (hE : SymTraceless E) :
    ddot E (nearStress z a d 0 0 F)
      = 20 / 3 * Real.pi * a ^ 3 * (z.XM * (3 / 2 * (dotp d (app E d) * dotp d (app F d)))
        + z.YM * (2 * (dotp (app E d) (app F d) - dotp d (app E d) * dotp d (app F d)))
        + z.ZM * (ddot E F - 2 * dotp (app E d) (app F d) + 1 / 2 * (dotp d (app E d) * dotp d (app F d)))) := by
  have e22 : E 2 2 = -E 0 0 - E 1 1 := by have := hE.2; linarith
  simp only [ddot, Fin.sum_univ_three, nearStress]
  generalize app F d = v
  simp only [dotp, cross, app, dlt, hE.1 1 0, hE.1 2 0, hE.1 2 1, e22]
  simp
  ring

theorem blockSF : ∑ p, ∑ j, w1 (.s p) * nearDirect z a d (.s p) (.f j) * w2 (.f j)
    = 4 * Real.pi * a ^ 2 * (z.XG * (dotp d (app (strain w1) d) * dotp d (vel w2))
        + z.YG * (2 * (dotp (app (strain w1) d) (vel w2) - dotp d (app (strain w1) d) * dotp d (vel w2)))) := by
  rw [← ddot_SF z a d (strain_symm w1) (vel w2)]
  exact blockS w1 (S := fun j p => nearDirect z a d (.s p) (.f j))
    (fun j => nearStress_symTraceless z a hd (unit j) 0 zero_symm) (fun j p => rfl) (vel w2)

theorem blockST : ∑ p, ∑ j, w1 (.s p) * nearDirect z a d (.s p) (.t j) * w2 (.t j)
    = -(8 * Real.pi * a ^ 3 * (z.YH * (2 * dotp (app (strain w1) d) (cross d (spin w2))))) := by
  rw [← ddot_ST z a d (strain_symm w1) (spin w2)]
  exact blockS w1 (S := fun j p => nearDirect z a d (.s p) (.t j))
    (fun j => nearStress_symTraceless z a hd 0 (unit j) zero_symm) (fun j p => rfl) (spin w2)

omit hd in
theorem nearStress_strain (i j : Fin 3) :
    ∑ q, nearStress z a d 0 0 (basis5 q) i j * w2 (.s q) = nearStress z a d 0 0 (strain w2) i j := by
  have h1 : ∀ m, ∑ q, w2 (.s q) * app (basis5 q) d m = app (strain w2) d m := by
    intro m
    simp only [app, dotp, strain, Finset.sum_mul, ← Finset.sum_add_distrib]
    exact Finset.sum_congr rfl fun q _ => by ring
  have h2 : ∑ q, w2 (.s q) * dotp d (app (basis5 q) d) = dotp d (app (strain w2) d) := by
    simp only [dotp, ← h1, Finset.mul_sum, ← Finset.sum_add_distrib]
    exact Finset.sum_congr rfl fun q _ => by ring
  have h3 : ∑ q, w2 (.s q) * basis5 q i j = strain w2 i j := rfl
  simp only [nearStress, ← h1, ← h2, ← h3, Finset.mul_sum, Finset.sum_mul, ← Finset.sum_add_distrib,
    ← Finset.sum_sub_distrib]
  simp only [app_zero, cross_zero, dotp]
  simp
  exact Finset.sum_congr rfl fun q _ => by ring

theorem blockSS : ∑ p, ∑ q, w1 (.s p) * nearDirect z a d (.s p) (.s q) * w2 (.s q)
    = 20 / 3 * Real.pi * a ^ 3 * (z.XM * (3 / 2 * (dotp d (app (strain w1) d) * dotp d (app (strain w2) d)))
        + z.YM * (2 * (dotp (app (strain w1) d) (app (strain w2) d)
            - dotp d (app (strain w1) d) * dotp d (app (strain w2) d)))
        + z.ZM * (ddot (strain w1) (strain w2) - 2 * dotp (app (strain w1) d) (app (strain w2) d)
            + 1 / 2 * (dotp d (app (strain w1) d) * dotp d (app (strain w2) d)))) := by
  rw [← ddot_SS z a d (strain_symm w1), ddot,
    ← five_contract w1 (nearStress_symTraceless z a hd 0 0 (strain_symm w2))]
  refine Finset.sum_congr rfl fun p _ => ?_
  have : five (nearStress z a d 0 0 (strain w2)) p
      = ∑ q, five (nearStress z a d 0 0 (basis5 q)) p * w2 (.s q) := by
    rw [show nearStress z a d 0 0 (strain w2) = fun i j => ∑ q, nearStress z a d 0 0 (basis5 q) i j * w2 (.s q)
      from funext fun i => funext fun j => (nearStress_strain z a d w2 i j).symm, five_sum]
    refine Finset.sum_congr rfl fun q _ => ?_
    rw [show (fun i j => nearStress z a d 0 0 (basis5 q) i j * w2 (.s q))
      = fun i j => w2 (.s q) * nearStress z a d 0 0 (basis5 q) i j from funext fun i => funext fun j => mul_comm _ _,
      mul_comm]
    fin_cases p <;> simp [five] <;> ring
  rw [this, Finset.mul_sum]
  exact Finset.sum_congr rfl fun q _ => by simp only [nearDirect]; ring

/-- The part of a rate of strain that lies in the plane across the line of centres. -/
noncomputable def across (E : Fin 3 → Fin 3 → ℝ) (i j : Fin 3) : ℝ :=
  E i j - d i * app E d j - app E d i * d j + 1 / 2 * ((d i * d j + dlt i j) * dotp d (app E d))

/-- Part of a vector across the line of centres. -/
def perp (v : Fin 3 → ℝ) (i : Fin 3) : ℝ := v i - dotp d v * d i

theorem perp_dot (v w : Fin 3 → ℝ) : dotp (perp d v) (perp d w) = dotp v w - dotp d v * dotp d w := by
  simp only [dotp, perp] at hd ⊢
  linear_combination (d 0 * v 0 + d 1 * v 1 + d 2 * v 2) * (d 0 * w 0 + d 1 * w 1 + d 2 * w 2) * hd

theorem cross_dot (v w : Fin 3 → ℝ) : dotp (cross d v) (cross d w) = dotp v w - dotp d v * dotp d w := by
  simp only [dotp, cross] at hd ⊢
  simp
  linear_combination (v 0 * w 0 + v 1 * w 1 + v 2 * w 2) * hd

omit hd in
theorem perp_cross (v w : Fin 3 → ℝ) : dotp (perp d v) (cross d w) = dotp v (cross d w) := by
  simp [dotp, perp, cross]
  ring

theorem across_dot {E F : Fin 3 → Fin 3 → ℝ} (hE : SymTraceless E) (hF : SymTraceless F) :
    ddot (across d E) (across d F) = ddot E F - 2 * dotp (app E d) (app F d)
      + 1 / 2 * (dotp d (app E d) * dotp d (app F d)) := by
  have hv : ∀ i, E i 0 * d 0 + E i 1 * d 1 + E i 2 * d 2 = app E d i := fun i => rfl
  have hw : ∀ i, F i 0 * d 0 + F i 1 * d 1 + F i 2 * d 2 = app F d i := fun i => rfl
  unfold across
  generalize app E d = v at *
  generalize app F d = w at *
  have he : d 0 * v 0 + d 1 * v 1 + d 2 * v 2 = dotp d v := rfl
  have hf : d 0 * w 0 + d 1 * w 1 + d 2 * w 2 = dotp d w := rfl
  generalize dotp d v = e at *
  generalize dotp d w = f at *
  have tE := hE.2
  have tF := hF.2
  have v0 := hv 0
  have v1 := hv 1
  have v2 := hv 2
  have w0 := hw 0
  have w1 := hw 1
  have w2 := hw 2
  simp only [dotp] at hd ⊢
  simp only [hE.1 1 0, hE.1 2 0, hE.1 2 1, hF.1 1 0, hF.1 2 0, hF.1 2 1] at v0 v1 v2 w0 w1 w2
  simp only [ddot, Fin.sum_univ_three, hE.1 1 0, hE.1 2 0, hE.1 2 1, hF.1 1 0, hF.1 2 0, hF.1 2 1]
  simp [dlt]
  linear_combination (-2) * (w 0 * v0 + w 1 * v1 + w 2 * v2) - 2 * (v 0 * w0 + v 1 * w1 + v 2 * w2)
    + 1 / 2 * f * (d 0 * v0 + d 1 * v1 + d 2 * v2 + he + tE) + 1 / 2 * e * (d 0 * w0 + d 1 * w1 + d 2 * w2 + hf + tF)
    + 2 * (v 0 * w 0 + v 1 * w 1 + v 2 * w 2) * hd + 2 * (d 0 * w 0 + d 1 * w 1 + d 2 * w 2) * he + 2 * e * hf
    - f * ((d 0 * v 0 + d 1 * v 1 + d 2 * v 2) * hd + 2 * he) - e * ((d 0 * w 0 + d 1 * w 1 + d 2 * w 2) * hd + 2 * hf)
    + 1 / 4 * e * f * (d 0 * d 0 + d 1 * d 1 + d 2 * d 2 + 3) * hd

omit hd in
theorem self_blocks (w : Comp → ℝ) :
    overComps (fun c1 => overComps fun c2 => w c1 * nearSelf z a d c1 c2 * w c2)
      = ∑ i, ∑ j, w (.f i) * nearDirect z a d (.f i) (.f j) * w (.f j)
        + 2 * ∑ i, ∑ j, w (.t i) * nearDirect z a d (.t i) (.f j) * w (.f j)
        + ∑ i, ∑ j, w (.t i) * nearDirect z a d (.t i) (.t j) * w (.t j)
        + 2 * ∑ p, ∑ j, w (.s p) * nearDirect z a d (.s p) (.f j) * w (.f j)
        + 2 * ∑ p, ∑ j, w (.s p) * nearDirect z a d (.s p) (.t j) * w (.t j)
        + ∑ p, ∑ q, w (.s p) * nearDirect z a d (.s p) (.s q) * w (.s q) := by
  have e1 : ∑ i, ∑ j, w (.f i) * nearDirect z a d (.t j) (.f i) * w (.t j)
      = ∑ i, ∑ j, w (.t i) * nearDirect z a d (.t i) (.f j) * w (.f j) := by
    rw [Finset.sum_comm]
    exact Finset.sum_congr rfl fun i _ => Finset.sum_congr rfl fun j _ => by ring
  have e2 : ∑ i, ∑ p, w (.f i) * nearDirect z a d (.s p) (.f i) * w (.s p)
      = ∑ p, ∑ j, w (.s p) * nearDirect z a d (.s p) (.f j) * w (.f j) := by
    rw [Finset.sum_comm]
    exact Finset.sum_congr rfl fun i _ => Finset.sum_congr rfl fun j _ => by ring
  have e3 : ∑ i, ∑ p, w (.t i) * nearDirect z a d (.s p) (.t i) * w (.s p)
      = ∑ p, ∑ j, w (.s p) * nearDirect z a d (.s p) (.t j) * w (.t j) := by
    rw [Finset.sum_comm]
    exact Finset.sum_congr rfl fun i _ => Finset.sum_congr rfl fun j _ => by ring
  simp only [overComps, nearSelf, order, Finset.sum_add_distrib, le_refl, if_true, show ¬ (1 ≤ 0) by omega,
    show ¬ (2 ≤ 0) by omega, show ¬ (2 ≤ 1) by omega, show 0 ≤ 1 by omega, show 0 ≤ 2 by omega, show 1 ≤ 2 by omega,
    if_false, e1, e2, e3]
  ring

omit hd in
theorem pair_blocks (zab zba : Scalars) (a b : ℝ) (w1 w2 : Comp → ℝ) :
    overComps (fun c1 => overComps fun c2 => w1 c1 * nearPair zab zba True a b d c1 c2 * w2 c2)
      = ∑ i, ∑ j, w1 (.f i) * nearDirect zab a d (.f i) (.f j) * w2 (.f j)
        + ∑ i, ∑ j, w1 (.t i) * nearDirect zab a d (.t i) (.f j) * w2 (.f j)
        + ∑ i, ∑ j, w2 (.t i) * nearDirect zba b (fun i => -d i) (.t i) (.f j) * w1 (.f j)
        + ∑ i, ∑ j, w1 (.t i) * nearDirect zab a d (.t i) (.t j) * w2 (.t j)
        + ∑ p, ∑ j, w1 (.s p) * nearDirect zab a d (.s p) (.f j) * w2 (.f j)
        + ∑ p, ∑ j, w2 (.s p) * nearDirect zba b (fun i => -d i) (.s p) (.f j) * w1 (.f j)
        + ∑ p, ∑ j, w1 (.s p) * nearDirect zab a d (.s p) (.t j) * w2 (.t j)
        + ∑ p, ∑ j, w2 (.s p) * nearDirect zba b (fun i => -d i) (.s p) (.t j) * w1 (.t j)
        + ∑ p, ∑ q, w1 (.s p) * nearDirect zab a d (.s p) (.s q) * w2 (.s q) := by
  have e1 : ∑ i, ∑ j, w1 (.f i) * nearDirect zba b (fun i => -d i) (.t j) (.f i) * w2 (.t j)
      = ∑ i, ∑ j, w2 (.t i) * nearDirect zba b (fun i => -d i) (.t i) (.f j) * w1 (.f j) := by
    rw [Finset.sum_comm]
    exact Finset.sum_congr rfl fun i _ => Finset.sum_congr rfl fun j _ => by ring
  have e2 : ∑ i, ∑ p, w1 (.f i) * nearDirect zba b (fun i => -d i) (.s p) (.f i) * w2 (.s p)
      = ∑ p, ∑ j, w2 (.s p) * nearDirect zba b (fun i => -d i) (.s p) (.f j) * w1 (.f j) := by
    rw [Finset.sum_comm]
    exact Finset.sum_congr rfl fun i _ => Finset.sum_congr rfl fun j _ => by ring
  have e3 : ∑ i, ∑ p, w1 (.t i) * nearDirect zba b (fun i => -d i) (.s p) (.t i) * w2 (.s p)
      = ∑ p, ∑ j, w2 (.s p) * nearDirect zba b (fun i => -d i) (.s p) (.t j) * w1 (.t j) := by
    rw [Finset.sum_comm]
    exact Finset.sum_congr rfl fun i _ => Finset.sum_congr rfl fun j _ => by ring
  simp only [overComps, nearPair, order, Finset.sum_add_distrib]
  simp only [lt_irrefl, false_or, true_and, and_true, if_true, show ¬ (1 < 0) by omega, show ¬ (2 < 0) by omega,
    show ¬ (2 < 1) by omega, show 0 < 1 by omega, show 0 < 2 by omega, show 1 < 2 by omega, true_or,
    show ¬ (1 = 0) by omega, show ¬ (2 = 0) by omega, show ¬ (2 = 1) by omega, if_false, e1, e2, e3]
  ring

theorem pairPower_split (z1 z2 z12 z21 : Scalars) (a b : ℝ) (w1 w2 : Comp → ℝ) :
    pairPower z1 z2 z12 z21 a b d w1 w2
      = axialPower z1 z2 z12 z21 a b (dotp d (vel w1)) (dotp d (vel w2)) (dotp d (app (strain w1) d))
          (dotp d (app (strain w2) d))
        + twistPower z1 z2 z12 a b (dotp d (spin w1)) (dotp d (spin w2))
        + ∑ k, shearPower z1 z2 z12 z21 a b (perp d (vel w1) k) (perp d (vel w2) k) (cross d (spin w1) k)
            (cross d (spin w2) k) (perp d (app (strain w1) d) k) (perp d (app (strain w2) d) k)
        + ∑ i, ∑ j, planePower z1 z2 z12 a b (across d (strain w1) i j) (across d (strain w2) i j) := by
  have hn : dotp (fun i => -d i) (fun i => -d i) = 1 := by rw [← hd]; simp [dotp]
  have n1 : ∀ v, dotp (fun i => -d i) v = -dotp d v := fun v => by simp [dotp]; ring
  have n2 : ∀ E : Fin 3 → Fin 3 → ℝ, app E (fun i => -d i) = fun i => -app E d i := fun E => by
    funext i; simp [app, dotp]; ring
  have n3 : ∀ v w : Fin 3 → ℝ, dotp (fun i => -v i) w = -dotp v w := fun v w => by simp [dotp]; ring
  have n4 : ∀ v w : Fin 3 → ℝ, dotp v (fun i => -w i) = -dotp v w := fun v w => by simp [dotp]; ring
  have n5 : ∀ v, cross (fun i => -d i) v = fun i => -cross d v i := fun v => by
    funext i; fin_cases i <;> simp [cross] <;> ring
  -- the shear part in terms of scalar products
  have hs : ∑ k, shearPower z1 z2 z12 z21 a b (perp d (vel w1) k) (perp d (vel w2) k) (cross d (spin w1) k)
            (cross d (spin w2) k) (perp d (app (strain w1) d) k) (perp d (app (strain w2) d) k)
      = Real.pi * (6 * (a * z1.YA * dotp (perp d (vel w1)) (perp d (vel w1))
            + b * z2.YA * dotp (perp d (vel w2)) (perp d (vel w2))
            + 2 * (a * z12.YA * dotp (perp d (vel w1)) (perp d (vel w2))))
        + 8 * (a ^ 2 * z1.YB * dotp (perp d (vel w1)) (cross d (spin w1))
            - b ^ 2 * z2.YB * dotp (perp d (vel w2)) (cross d (spin w2))
            + a ^ 2 * z12.YB * dotp (perp d (vel w2)) (cross d (spin w1))
            - b ^ 2 * z21.YB * dotp (perp d (vel w1)) (cross d (spin w2)))
        + 8 * (a ^ 3 * z1.YC * dotp (cross d (spin w1)) (cross d (spin w1))
            + b ^ 3 * z2.YC * dotp (cross d (spin w2)) (cross d (spin w2))
            + 2 * (a ^ 3 * z12.YC * dotp (cross d (spin w1)) (cross d (spin w2))))
        + 16 * (a ^ 2 * z1.YG * dotp (perp d (app (strain w1) d)) (perp d (vel w1))
            - b ^ 2 * z2.YG * dotp (perp d (app (strain w2) d)) (perp d (vel w2))
            + a ^ 2 * z12.YG * dotp (perp d (app (strain w1) d)) (perp d (vel w2))
            - b ^ 2 * z21.YG * dotp (perp d (app (strain w2) d)) (perp d (vel w1)))
        - 32 * (a ^ 3 * z1.YH * dotp (perp d (app (strain w1) d)) (cross d (spin w1))
            + b ^ 3 * z2.YH * dotp (perp d (app (strain w2) d)) (cross d (spin w2))
            + a ^ 3 * z12.YH * dotp (perp d (app (strain w1) d)) (cross d (spin w2))
            + b ^ 3 * z21.YH * dotp (perp d (app (strain w2) d)) (cross d (spin w1)))
        + 40 / 3 * (a ^ 3 * z1.YM * dotp (perp d (app (strain w1) d)) (perp d (app (strain w1) d))
            + b ^ 3 * z2.YM * dotp (perp d (app (strain w2) d)) (perp d (app (strain w2) d))
            + 2 * (a ^ 3 * z12.YM * dotp (perp d (app (strain w1) d)) (perp d (app (strain w2) d))))) := by
    generalize perp d (vel w1) = A1
    generalize perp d (vel w2) = A2
    generalize cross d (spin w1) = B1
    generalize cross d (spin w2) = B2
    generalize perp d (app (strain w1) d) = C1
    generalize perp d (app (strain w2) d) = C2
    simp only [Fin.sum_univ_three, shearPower, dotp]
    ring
  have hp : ∑ i, ∑ j, planePower z1 z2 z12 a b (across d (strain w1) i j) (across d (strain w2) i j)
      = 20 / 3 * Real.pi * (a ^ 3 * z1.ZM * ddot (across d (strain w1)) (across d (strain w1))
        + b ^ 3 * z2.ZM * ddot (across d (strain w2)) (across d (strain w2))
        + 2 * (a ^ 3 * z12.ZM * ddot (across d (strain w1)) (across d (strain w2)))) := by
    generalize across d (strain w1) = X1
    generalize across d (strain w2) = X2
    simp only [ddot, planePower, Fin.sum_univ_three]
    ring
  rw [hs, hp]
  simp only [perp_cross, perp_dot d hd, cross_dot d hd, across_dot d hd (strain_symm _) (strain_symm _)]
  unfold pairPower
  rw [self_blocks, self_blocks, pair_blocks]
  simp only [blockFF, blockTF, blockTT, blockSF _ _ _ _ _ hd, blockST _ _ _ _ _ hd, blockSS _ _ _ _ _ hd,
    blockSF _ _ _ _ _ hn, blockST _ _ _ _ _ hn, blockSS _ _ _ _ _ hn, n1, n2, n3, n4, n5]
  unfold axialPower twistPower
  ring

/-- No motion of the pair gains energy if none of the four kinds does. -/
theorem pairPower_nonneg {z1 z2 z12 z21 : Scalars} {a b : ℝ} (h : Dissipative z1 z2 z12 z21 a b)
    (w1 w2 : Comp → ℝ) : 0 ≤ pairPower z1 z2 z12 z21 a b d w1 w2 := by
  rw [pairPower_split d hd]
  have h1 := h.axial (dotp d (vel w1)) (dotp d (vel w2)) (dotp d (app (strain w1) d)) (dotp d (app (strain w2) d))
  have h2 := h.twist (dotp d (spin w1)) (dotp d (spin w2))
  have h3 : 0 ≤ ∑ k, shearPower z1 z2 z12 z21 a b (perp d (vel w1) k) (perp d (vel w2) k) (cross d (spin w1) k)
            (cross d (spin w2) k) (perp d (app (strain w1) d) k) (perp d (app (strain w2) d) k) :=
    Finset.sum_nonneg fun k _ => h.shear _ _ _ _ _ _
  have h4 : 0 ≤ ∑ i, ∑ j, planePower z1 z2 z12 a b (across d (strain w1) i j) (across d (strain w2) i j) :=
    Finset.sum_nonneg fun i _ => Finset.sum_nonneg fun j _ => h.plane _ _
  linarith

end

end SD.Near
