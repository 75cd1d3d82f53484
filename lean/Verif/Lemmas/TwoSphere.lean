import Verif.Spec.TwoSphere
import Mathlib.Tactic.LinearCombination
import Mathlib.Tactic.FinCases

/-!
The two-sphere relation, split along and across the line of centres.
-/

set_option autoImplicit false

namespace SD

open Spec

namespace TwoSphere

/-- Part along the axis. -/
def par (d v : Fin 3 → ℝ) : ℝ := dotp d v
/-- Part across the axis. -/
def per (d v : Fin 3 → ℝ) (i : Fin 3) : ℝ := v i - dotp d v * d i

theorem cons3 (a b c : ℝ) : (![a, b, c] : Fin 3 → ℝ) 0 = a ∧ (![a, b, c] : Fin 3 → ℝ) 1 = b ∧
    (![a, b, c] : Fin 3 → ℝ) 2 = c := ⟨rfl, rfl, rfl⟩

theorem cross0 (x y : Fin 3 → ℝ) : cross x y 0 = x 1 * y 2 - x 2 * y 1 := rfl
theorem cross1 (x y : Fin 3 → ℝ) : cross x y 1 = x 2 * y 0 - x 0 * y 2 := rfl
theorem cross2 (x y : Fin 3 → ℝ) : cross x y 2 = x 0 * y 1 - x 1 * y 0 := rfl

theorem fin3 {p : Fin 3 → Prop} (h0 : p 0) (h1 : p 1) (h2 : p 2) : ∀ i, p i := by
  intro i; fin_cases i <;> assumption

theorem kkA_app (X Y : ℝ) (d U : Fin 3 → ℝ) (i : Fin 3) :
    ∑ j, kkA X Y d i j * U j = X * (par d U * d i) + Y * per d U i := by
  revert i
  apply fin3 <;> simp [kkA, par, per, dotp, dlt, Fin.sum_univ_three] <;> ring

theorem kkB_app (Y : ℝ) (d U : Fin 3 → ℝ) (i : Fin 3) : ∑ j, kkB Y d i j * U j = Y * cross U d i := by
  revert i
  apply fin3 <;> simp [kkB, cross0, cross1, cross2, Spec.unit, dlt, Fin.sum_univ_three] <;> ring

theorem kkB_tr (Y : ℝ) (d O : Fin 3 → ℝ) (i : Fin 3) : ∑ j, kkB Y d j i * O j = Y * cross d O i := by
  revert i
  apply fin3 <;> simp [kkB, cross0, cross1, cross2, Spec.unit, dlt, Fin.sum_univ_three] <;> ring

theorem kkG_app (X Y : ℝ) (d U : Fin 3 → ℝ) (i j : Fin 3) :
    ∑ k, kkG X Y d i j k * U k
      = X * ((d i * d j - dlt i j / 3) * par d U) + Y * (d i * per d U j + per d U i * d j) := by
  revert j
  revert i
  apply fin3 <;> apply fin3 <;> simp [kkG, par, per, dotp, dlt, Fin.sum_univ_three] <;> ring

theorem kkH_app (Y : ℝ) (d O : Fin 3 → ℝ) (i j : Fin 3) :
    ∑ k, kkH Y d i j k * O k = -(Y * (d i * cross d O j + cross d O i * d j)) := by
  revert j
  revert i
  apply fin3 <;> apply fin3 <;>
    simp [kkH, cross0, cross1, cross2, Spec.unit, dlt, Fin.sum_univ_three] <;> ring

theorem kkG_tr (X Y : ℝ) (d : Fin 3 → ℝ) {E : Fin 3 → Fin 3 → ℝ} (hE : SymTraceless E) (i : Fin 3) :
    ∑ j, ∑ k, kkG X Y d j k i * E j k = X * (par d (app E d) * d i) + 2 * (Y * per d (app E d) i) := by
  have h1 := hE.1 1 0
  have h2 := hE.1 2 0
  have h3 := hE.1 2 1
  have h4 : E 2 2 = -E 0 0 - E 1 1 := by linarith [hE.2]
  revert i
  apply fin3 <;> simp [kkG, par, per, dotp, app, dlt, Fin.sum_univ_three, h1, h2, h3, h4] <;> ring

theorem kkH_tr (Y : ℝ) (d : Fin 3 → ℝ) {E : Fin 3 → Fin 3 → ℝ} (hE : SymTraceless E) (i : Fin 3) :
    ∑ j, ∑ k, kkH Y d j k i * E j k = 2 * (Y * cross d (app E d) i) := by
  have h1 := hE.1 1 0
  have h2 := hE.1 2 0
  have h3 := hE.1 2 1
  revert i
  apply fin3 <;>
    simp [kkH, cross0, cross1, cross2, dotp, app, Spec.unit, dlt, Fin.sum_univ_three, h1, h2, h3] <;> ring

/-- The part of the stresslet that belongs to `Z`. -/
noncomputable def zz (d : Fin 3 → ℝ) (E : Fin 3 → Fin 3 → ℝ) (i j : Fin 3) : ℝ :=
  E i j - d i * app E d j - app E d i * d j + 1 / 2 * ((d i * d j + dlt i j) * par d (app E d))

theorem kkM_app (X Y Z : ℝ) (d : Fin 3 → ℝ) {E : Fin 3 → Fin 3 → ℝ} (hE : SymTraceless E) (i j : Fin 3) :
    ∑ k, ∑ l, kkM X Y Z d i j k l * E k l
      = X * (3 / 2 * ((d i * d j - dlt i j / 3) * par d (app E d)))
        + Y * (d i * per d (app E d) j + per d (app E d) i * d j) + Z * zz d E i j := by
  have h1 := hE.1 1 0
  have h2 := hE.1 2 0
  have h3 := hE.1 2 1
  have h4 : E 2 2 = -E 0 0 - E 1 1 := by linarith [hE.2]
  revert j
  revert i
  apply fin3 <;> apply fin3 <;>
    simp [kkM, zz, par, per, dotp, app, dlt, Fin.sum_univ_three, h1, h2, h3, h4] <;> ring

section
variable {d : Fin 3 → ℝ}

theorem split_par (hd : dotp d d = 1) {v q : Fin 3 → ℝ} {p : ℝ} (hq : dotp d q = 0) :
    (∀ i, v i = p * d i + q i) ↔ par d v = p ∧ ∀ i, per d v i = q i := by
  constructor
  · intro h
    have e : dotp d v = p := by
      have : dotp d v = p * dotp d d + dotp d q := by
        simp only [dotp] at *
        rw [h 0, h 1, h 2]; ring
      rw [this, hd, hq]; ring
    exact ⟨e, fun i => by unfold per; rw [e, h i]; ring⟩
  · rintro ⟨h1, h2⟩ i
    have := h2 i
    unfold per at this
    unfold par at h1
    rw [h1] at this
    linarith

theorem cross_cross (hd : dotp d d = 1) (v : Fin 3 → ℝ) (i : Fin 3) :
    cross d (cross d v) i = -per d v i := by
  unfold dotp at hd
  revert i
  apply fin3 <;> simp only [cross0, cross1, cross2, per, dotp]
  · linear_combination -(v 0) * hd
  · linear_combination -(v 1) * hd
  · linear_combination -(v 2) * hd

theorem cross_cross' (hd : dotp d d = 1) (v : Fin 3 → ℝ) (i : Fin 3) :
    cross d (cross v d) i = per d v i := by
  have := cross_cross hd v i
  revert this
  revert i
  apply fin3 <;> simp only [cross0, cross1, cross2, per, dotp] <;> intro h <;> linarith

theorem par_per (hd : dotp d d = 1) (v : Fin 3 → ℝ) : dotp d (per d v) = 0 := by
  have : dotp d (per d v) = dotp d v - dotp d v * dotp d d := by unfold per dotp; ring
  rw [this, hd]; ring

theorem par_cross (v : Fin 3 → ℝ) : dotp d (cross d v) = 0 := by
  simp only [dotp, cross0, cross1, cross2]; ring

theorem par_cross' (v : Fin 3 → ℝ) : dotp d (cross v d) = 0 := by
  simp only [dotp, cross0, cross1, cross2]; ring

theorem per_self (v : Fin 3 → ℝ) (h : dotp d v = 0) (i : Fin 3) : per d v i = v i := by
  unfold per; rw [h]; ring

theorem split_cross (hd : dotp d d = 1) {v q : Fin 3 → ℝ} {p : ℝ} (hq : dotp d q = 0) :
    (∀ i, v i = p * d i + q i) ↔ par d v = p ∧ ∀ i, cross d v i = cross d q i := by
  rw [split_par hd hq]
  refine and_congr_right fun _ => ⟨fun h => ?_, fun h i => ?_⟩
  · have e : ∀ i, cross d v i = cross d (per d v) i := by
      apply fin3 <;> simp only [cross0, cross1, cross2, per] <;> ring
    intro i
    rw [e i, show per d v = q from funext h]
  · have h1 := cross_cross hd v i
    have h2 := cross_cross hd q i
    rw [show cross d v = cross d q from funext h, h2, per_self q hq] at h1
    linarith

end

/-- The relation along and across the axis. -/
theorem coupled_iff {σ : ℝ} {z : PairScalars} {d : Fin 3 → ℝ} (hd : dotp d d = 1)
    {X Y V W : Fin 2 → Fin 3 → ℝ} {E S : Fin 2 → Fin 3 → Fin 3 → ℝ} (hE : ∀ β, SymTraceless (E β)) :
    Coupled σ z d X Y E V W S ↔
      ((∀ α, par d (V α) = ∑ β, (z.XA α β * par d (X β) + σ * (z.XG β α * par d (app (E β) d)))) ∧
       (∀ i α, per d (V α) i = ∑ β, (z.YA α β * per d (X β) i + z.YB β α * cross d (Y β) i
          + σ * (2 * (z.YG β α * per d (app (E β) d) i))))) ∧
      ((∀ α, par d (W α) = ∑ β, z.XC α β * par d (Y β)) ∧
       (∀ i α, cross d (W α) i = ∑ β, (z.YB α β * per d (X β) i + z.YC α β * cross d (Y β) i
          - σ * (2 * (z.YH β α * per d (app (E β) d) i))))) ∧
      ∀ α i j, S α i j =
        (d i * d j - dlt i j / 3) * (∑ β, (z.XG α β * par d (X β)
            + 3 / 2 * (z.XM α β * par d (app (E β) d))))
          + d i * (∑ β, (z.YG α β * per d (X β) j - z.YH α β * cross d (Y β) j
            + z.YM α β * per d (app (E β) d) j))
          + (∑ β, (z.YG α β * per d (X β) i - z.YH α β * cross d (Y β) i
            + z.YM α β * per d (app (E β) d) i)) * d j
          + ∑ β, z.ZM α β * zz d (E β) i j := by
  have hp := fun v => par_per hd v
  have hc := fun v => par_cross (d := d) v
  have hc' := fun v => par_cross' (d := d) v
  have key1 : (∀ α i, V α i = ∑ β, ((∑ j, kkA (z.XA α β) (z.YA α β) d i j * X β j)
      + (∑ j, kkB (z.YB β α) d j i * Y β j) + σ * ∑ j, ∑ k, kkG (z.XG β α) (z.YG β α) d j k i * E β j k)) ↔
      ((∀ α, par d (V α) = ∑ β, (z.XA α β * par d (X β) + σ * (z.XG β α * par d (app (E β) d)))) ∧
       (∀ i α, per d (V α) i = ∑ β, (z.YA α β * per d (X β) i + z.YB β α * cross d (Y β) i
          + σ * (2 * (z.YG β α * per d (app (E β) d) i))))) := by
    rw [forall_comm (α := Fin 3), ← forall_and]
    refine forall_congr' fun α => ?_
    rw [← split_par hd]
    · refine forall_congr' fun i => ?_
      simp only [kkA_app, kkB_tr, kkG_tr _ _ _ (hE _), Fin.sum_univ_two]
      constructor <;> intro h <;> rw [h] <;> ring
    · have h1 := hp (X 0); have h2 := hp (X 1)
      have h3 := hc (Y 0); have h4 := hc (Y 1)
      have h5 := hp (app (E 0) d); have h6 := hp (app (E 1) d)
      simp only [Fin.sum_univ_two]
      unfold dotp at *
      linear_combination (z.YA α 0) * h1 + (z.YA α 1) * h2 + (z.YB 0 α) * h3 + (z.YB 1 α) * h4
        + σ * 2 * z.YG 0 α * h5 + σ * 2 * z.YG 1 α * h6
  have key2 : (∀ α i, W α i = ∑ β, ((∑ j, kkB (z.YB α β) d i j * X β j)
      + (∑ j, kkA (z.XC α β) (z.YC α β) d i j * Y β j) + σ * ∑ j, ∑ k, kkH (z.YH β α) d j k i * E β j k)) ↔
      ((∀ α, par d (W α) = ∑ β, z.XC α β * par d (Y β)) ∧
       (∀ i α, cross d (W α) i = ∑ β, (z.YB α β * per d (X β) i + z.YC α β * cross d (Y β) i
          - σ * (2 * (z.YH β α * per d (app (E β) d) i))))) := by
    rw [forall_comm (α := Fin 3), ← forall_and]
    refine forall_congr' fun α => ?_
    have hq : ∀ i, cross d (fun i => ∑ β, (z.YB α β * cross (X β) d i + z.YC α β * per d (Y β) i
        + σ * (2 * (z.YH β α * cross d (app (E β) d) i)))) i
        = ∑ β, (z.YB α β * per d (X β) i + z.YC α β * cross d (Y β) i
          - σ * (2 * (z.YH β α * per d (app (E β) d) i))) := by
      intro i
      have e1 := cross_cross' hd (X 0) i; have e2 := cross_cross' hd (X 1) i
      have e3 := cross_cross hd (app (E 0) d) i; have e4 := cross_cross hd (app (E 1) d) i
      simp only [Fin.sum_univ_two]
      rw [← e1, ← e2, show per d (app (E 0) d) i = -cross d (cross d (app (E 0) d)) i by rw [e3]; ring,
        show per d (app (E 1) d) i = -cross d (cross d (app (E 1) d)) i by rw [e4]; ring]
      clear e1 e2 e3 e4
      revert i
      apply fin3 <;> simp only [cross0, cross1, cross2, per] <;> ring
    have hs := split_cross hd (v := W α) (p := ∑ β, z.XC α β * par d (Y β))
      (q := fun i => ∑ β, (z.YB α β * cross (X β) d i + z.YC α β * per d (Y β) i
        + σ * (2 * (z.YH β α * cross d (app (E β) d) i)))) (by
      have h1 := hc' (X 0); have h2 := hc' (X 1)
      have h3 := hp (Y 0); have h4 := hp (Y 1)
      have h5 := hc (app (E 0) d); have h6 := hc (app (E 1) d)
      simp only [Fin.sum_univ_two]
      unfold dotp at *
      linear_combination (z.YB α 0) * h1 + (z.YB α 1) * h2 + (z.YC α 0) * h3 + (z.YC α 1) * h4
        + σ * 2 * z.YH 0 α * h5 + σ * 2 * z.YH 1 α * h6)
    simp only [hq] at hs
    rw [← hs]
    refine forall_congr' fun i => ?_
    simp only [kkA_app, kkB_app, kkH_tr _ _ (hE _), Fin.sum_univ_two]
    constructor <;> intro h <;> rw [h] <;> ring
  constructor
  · intro h
    refine ⟨key1.mp h.first, key2.mp h.second, fun α i j => ?_⟩
    rw [h.third α i j]
    simp only [kkG_app, kkH_app, kkM_app _ _ _ _ (hE _), Fin.sum_univ_two]
    ring
  · rintro ⟨h1, h2, h3⟩
    refine ⟨key1.mpr h1, key2.mpr h2, fun α i j => ?_⟩
    rw [h3 α i j]
    simp only [kkG_app, kkH_app, kkM_app _ _ _ _ (hE _), Fin.sum_univ_two]
    ring

end TwoSphere

end SD
