import Verif.Spec.Lubrication
import Verif.Lemmas.NearfieldSeries

/-!
# C46: reciprocity of the lubrication functions
-/

set_option autoImplicit false

namespace SD

open Spec Nearfield Reflect Finset

/-- The sum in the functions `Fxa`, `Fya`, …. -/
noncomputable def polyS (f : ℤ → ℤ → ℝ) (k : ℕ) (lam : ℝ) : ℝ :=
  ∑ q ∈ Finset.range (k + 1), f ((k : ℤ) - q) q * lam ^ q

theorem lev_polyS (f : ℤ → ℤ → ℝ) (k : ℕ) (lam : ℝ) : lev f 1 lam k = polyS f k lam := by
  unfold lev polyS
  symm
  refine sum_nbij' (fun q : ℕ => (q : ℤ)) (fun q : ℤ => q.toNat) ?_ ?_ ?_ ?_ ?_
  · intro q hq
    rw [mem_range] at hq
    rw [mem_Icc]
    omega
  · intro q hq
    rw [mem_Icc] at hq
    rw [mem_range]
    omega
  · intro q _; simp
  · intro q hq
    rw [mem_Icc] at hq
    exact Int.toNat_of_nonneg hq.1
  · intro q _
    rw [one_zpow, one_mul, zpow_natCast]

theorem lev_swap (f : ℤ → ℤ → ℝ) (k : ℕ) {lam : ℝ} (hl : lam ≠ 0) :
    lev f lam 1 k = lam ^ k * polyS f k (1 / lam) := by
  rw [← lev_polyS]
  unfold lev
  rw [mul_sum]
  refine sum_congr rfl fun q _ => ?_
  rw [one_zpow, one_zpow, one_div, inv_zpow, zpow_sub₀ hl, zpow_natCast]
  ring

/-- The reciprocal theorem for the sums, in terms of the recurrence's reciprocity. -/
theorem polyS_recip {f : ℤ → ℤ → ℝ} {k : ℕ} {lam : ℝ} (hl : lam ≠ 0)
    (h : (1 : ℝ) * lev f 1 lam k = lam * lev f lam 1 k) : polyS f k lam = lam ^ (k + 1) * polyS f k (1 / lam) := by
  rw [one_mul, lev_polyS, lev_swap f k hl] at h
  rw [h]; ring

theorem Pxa_recip {k : ℕ} (hk : k % 2 = 1) {lam : ℝ} (hl : lam ≠ 0) :
    polyS (Pxa 1) k lam = lam ^ (k + 1) * polyS (Pxa 1) k (1 / lam) := by
  refine polyS_recip hl ?_
  refine (Px_family 1).reciprocal le_rfl Px_weights (i0 := (0, 1)) le_rfl ?_ ?_ ?_ one_ne_zero hl hk
  · simp; norm_num
  · simp [Nearfield.kron]
  · rintro ⟨c, n⟩ hi
    fin_cases c
    · have : (1 : ℕ) ≠ n := by rintro rfl; exact hi rfl
      simp [Nearfield.kron, this]
    · simp
    · simp

theorem Pxm_recip {k : ℕ} (hk : k % 2 = 1) {lam : ℝ} (hl : lam ≠ 0) :
    polyS (Pxm 2) k lam = lam ^ (k + 1) * polyS (Pxm 2) k (1 / lam) := by
  refine polyS_recip hl ?_
  refine (Px_family 2).reciprocal le_rfl Px_weights (i0 := (0, 2)) (by norm_num) ?_ ?_ ?_ one_ne_zero hl hk
  · simp; norm_num
  · simp [Nearfield.kron]
  · rintro ⟨c, n⟩ hi
    fin_cases c
    · have : (2 : ℕ) ≠ n := by rintro rfl; exact hi rfl
      simp [Nearfield.kron, this]
    · simp
    · simp

theorem Pya_recip {k : ℕ} (hk : k % 2 = 1) {lam : ℝ} (hl : lam ≠ 0) :
    polyS (Pya 1) k lam = lam ^ (k + 1) * polyS (Pya 1) k (1 / lam) := by
  refine polyS_recip hl ?_
  refine (Py_family (Nearfield.kron 1) fun _ => 0).reciprocal le_rfl Py_weights (i0 := (0, 1)) le_rfl ?_ ?_ ?_
    one_ne_zero hl hk
  · simp; norm_num
  · simp [Nearfield.kron]
  · rintro ⟨c, n⟩ hi
    fin_cases c
    · have : (1 : ℕ) ≠ n := by rintro rfl; exact hi rfl
      simp [Nearfield.kron, this]
    · simp
    · simp

theorem Pym_recip {k : ℕ} (hk : k % 2 = 1) {lam : ℝ} (hl : lam ≠ 0) :
    polyS (Pym 2) k lam = lam ^ (k + 1) * polyS (Pym 2) k (1 / lam) := by
  refine polyS_recip hl ?_
  refine (Py_family (Nearfield.kron 2) fun _ => 0).reciprocal le_rfl Py_weights (i0 := (0, 2)) (by norm_num) ?_ ?_ ?_
    one_ne_zero hl hk
  · simp; norm_num
  · simp [Nearfield.kron]
  · rintro ⟨c, n⟩ hi
    fin_cases c
    · have : (2 : ℕ) ≠ n := by rintro rfl; exact hi rfl
      simp [Nearfield.kron, this]
    · simp
    · simp

theorem Qyc_recip {k : ℕ} (hk : k % 2 = 1) {lam : ℝ} (hl : lam ≠ 0) :
    polyS (Qyc 1) k lam = lam ^ (k + 1) * polyS (Qyc 1) k (1 / lam) := by
  refine polyS_recip hl ?_
  refine (Py_family (fun _ => 0) (Nearfield.kron 1)).reciprocal le_rfl Py_weights (i0 := (1, 1)) le_rfl ?_ ?_ ?_
    one_ne_zero hl hk
  · simp
  · simp [Nearfield.kron]
  · rintro ⟨c, n⟩ hi
    fin_cases c
    · simp
    · have : (1 : ℕ) ≠ n := by rintro rfl; exact hi rfl
      simp [Nearfield.kron, this]
    · simp

theorem Pzm_recip {k : ℕ} (hk : k % 2 = 1) {lam : ℝ} (hl : lam ≠ 0) :
    polyS (Pzm 2) k lam = lam ^ (k + 1) * polyS (Pzm 2) k (1 / lam) := by
  refine polyS_recip hl ?_
  refine Pzm_family.reciprocal (by norm_num) Pzm_weights (i0 := (0, 2)) le_rfl ?_ ?_ ?_ one_ne_zero hl hk
  · simp; norm_num
  · simp [Nearfield.kron]
  · rintro ⟨c, n⟩ hi
    fin_cases c
    · have : (2 : ℕ) ≠ n := by rintro rfl; exact hi rfl
      simp [Nearfield.kron, this]
    · simp
    · simp

theorem shift_recip {m : ℕ} {lam : ℝ} (hl : 0 < lam) :
    (1 + lam) ^ (-(m : ℤ)) = lam ^ (-(m : ℤ)) * (1 + 1 / lam) ^ (-(m : ℤ)) := by
  rw [← mul_zpow]
  congr 1
  field_simp
  ring

/-- A sum of the code at `lam` and at `1 / lam`. -/
theorem intermediate_recip {f0 : ℕ → ℝ → ℝ} {f1 f2 f3 : ℝ → ℝ} {lam c : ℝ} (hl : 0 < lam) (N : ℕ)
    (h0 : ∀ m, m % 2 = 1 → f0 m lam = c * lam ^ m * f0 m (1 / lam)) (h1 : f1 lam = c * f1 (1 / lam))
    (h2 : f2 lam = c * f2 (1 / lam)) (h3 : f3 lam = c * f3 (1 / lam)) :
    intermediate_sum f0 f1 f2 f3 .odd lam N = c * intermediate_sum f0 f1 f2 f3 .odd (1 / lam) N := by
  unfold intermediate_sum
  rw [mul_sum]
  refine sum_congr rfl fun m hm => ?_
  have hm : m % 2 = 1 := (mem_filter.mp hm).2
  rw [h0 m hm, h1, h2, h3, shift_recip hl, ← zpow_natCast lam m, zpow_neg lam]
  have : lam ^ (m : ℤ) ≠ 0 := zpow_ne_zero _ hl.ne'
  field_simp

theorem intermediate_recip' {f0 : ℕ → ℝ → ℝ} {f1 f2 f3 : ℝ → ℝ} {lam c : ℝ} (N : ℕ)
    (h0 : ∀ m, m % 2 = 1 → f0 m lam = c * f0 m (1 / lam)) (h1 : f1 lam = c * f1 (1 / lam))
    (h2 : f2 lam = c * f2 (1 / lam)) (h3 : f3 lam = c * f3 (1 / lam)) :
    intermediate_sum_no_f0_coeff f0 f1 f2 f3 .odd lam N
      = c * intermediate_sum_no_f0_coeff f0 f1 f2 f3 .odd (1 / lam) N := by
  unfold intermediate_sum_no_f0_coeff
  rw [mul_sum]
  refine sum_congr rfl fun m hm => ?_
  have hm : m % 2 = 1 := (mem_filter.mp hm).2
  rw [h0 m hm, h1, h2, h3]
  ring

/-- `F` with the extra power for odd `k`. -/
theorem extra_recip {f : ℤ → ℤ → ℝ} {m : ℕ} (hm : m % 2 = 1) {lam : ℝ} (hl : lam ≠ 0)
    (h : polyS f m lam = lam ^ (m + 1) * polyS f m (1 / lam)) :
    2 ^ m * ∑ q ∈ Finset.range (m + 1), f ((m : ℤ) - q) q * lam ^ (q + m % 2)
      = lam ^ 3 * lam ^ m * (2 ^ m * ∑ q ∈ Finset.range (m + 1), f ((m : ℤ) - q) q * (1 / lam) ^ (q + m % 2)) := by
  have e : ∀ t : ℝ, ∑ q ∈ Finset.range (m + 1), f ((m : ℤ) - q) q * t ^ (q + m % 2) = t * polyS f m t := by
    intro t
    rw [polyS, mul_sum]
    refine sum_congr rfl fun q _ => ?_
    rw [hm]; ring
  rw [e, e, h]
  field_simp
  ring

section

variable {lam : ℝ} (hl : 0 < lam)

theorem zp (n : ℕ) : (1 + lam) ^ (-(n : ℤ)) = 1 / (1 + lam) ^ n := by
  rw [zpow_neg, zpow_natCast, one_div]

include hl

theorem G1xa_recip : G1xa lam = lam * G1xa (1 / lam) := by
  unfold G1xa
  have := zp (lam := lam) 3
  have h' := zp (lam := 1 / lam) 3
  push_cast at this h'
  rw [this, h']; field_simp; ring

theorem G2xa_recip : G2xa lam = lam * G2xa (1 / lam) := by
  unfold G2xa
  have := zp (lam := lam) 3
  have h' := zp (lam := 1 / lam) 3
  push_cast at this h'
  rw [this, h']; field_simp; ring

theorem G3xa_recip : G3xa lam = lam * G3xa (1 / lam) := by
  unfold G3xa
  have := zp (lam := lam) 3
  have h' := zp (lam := 1 / lam) 3
  push_cast at this h'
  rw [this, h']; field_simp; ring

theorem G2ya_recip : G2ya lam = lam * G2ya (1 / lam) := by
  unfold G2ya
  have := zp (lam := lam) 3
  have h' := zp (lam := 1 / lam) 3
  push_cast at this h'
  rw [this, h']; field_simp; ring

theorem G3ya_recip : G3ya lam = lam * G3ya (1 / lam) := by
  unfold G3ya
  have := zp (lam := lam) 3
  have h' := zp (lam := 1 / lam) 3
  push_cast at this h'
  rw [this, h']; field_simp; ring

theorem G4yc_recip : G4yc lam = lam ^ 3 * G4yc (1 / lam) := by
  unfold G4yc
  rw [zpow_neg_one, zpow_neg_one]; field_simp; ring

theorem G5yc_recip : G5yc lam = lam ^ 3 * G5yc (1 / lam) := by
  unfold G5yc
  rw [zpow_neg_one, zpow_neg_one]; field_simp; ring

theorem G4xm_recip : G4xm lam = lam ^ 3 * G4xm (1 / lam) := by
  unfold G4xm
  field_simp; ring

theorem G5xm_recip : G5xm lam = lam ^ 3 * G5xm (1 / lam) := by
  unfold G5xm
  field_simp; ring

theorem G6xm_recip : G6xm lam = lam ^ 3 * G6xm (1 / lam) := by
  unfold G6xm
  field_simp; ring

theorem G5ym_recip : G5ym lam = lam ^ 3 * G5ym (1 / lam) := by
  unfold G5ym
  field_simp; ring

theorem G6ym_recip : G6ym lam = lam ^ 3 * G6ym (1 / lam) := by
  unfold G6ym
  field_simp; ring

theorem G3zm_recip : G3zm lam = lam ^ 3 * G3zm (1 / lam) := by
  unfold G3zm
  field_simp; ring

theorem X12A_recip (xi : ℝ) : X12A xi lam = lam * X12A xi (1 / lam) := by
  have hs := intermediate_recip (f0 := Fxa) hl 100 (c := lam) (fun m hm => by
    have := Pxa_recip hm hl.ne'
    unfold Fxa
    change 2 ^ m * polyS (Pxa 1) m lam = lam * lam ^ m * (2 ^ m * polyS (Pxa 1) m (1 / lam))
    rw [this]; ring) (G1xa_recip hl) (G2xa_recip hl) (G3xa_recip hl)
  have h1 : (1 : ℝ) + lam ≠ 0 := by positivity
  have h2 : (1 : ℝ) + 1 / lam ≠ 0 := by positivity
  have e : ∀ t s : ℝ, 1 + t ≠ 0 → 1 / 2 * (1 + t) * (-2 / (1 + t) * s) = -s := by
    intro t s h; field_simp
  unfold X12A AX12
  dsimp only
  rw [e _ _ h1, e _ _ h2, hs, G1xa_recip hl, G2xa_recip hl, G3xa_recip hl]
  ring

theorem Y12A_recip (xi : ℝ) : Y12A xi lam = lam * Y12A xi (1 / lam) := by
  have hs := intermediate_recip (f0 := Fya) (f1 := Nearfield.Z) hl 100 (c := lam) (fun m hm => by
    have := Pya_recip hm hl.ne'
    unfold Fya
    change 2 ^ m * polyS (Pya 1) m lam = lam * lam ^ m * (2 ^ m * polyS (Pya 1) m (1 / lam))
    rw [this]; ring) (by simp [Nearfield.Z]) (G2ya_recip hl) (G3ya_recip hl)
  have h1 : (1 : ℝ) + lam ≠ 0 := by positivity
  have h2 : (1 : ℝ) + 1 / lam ≠ 0 := by positivity
  have e : ∀ t s : ℝ, 1 + t ≠ 0 → 1 / 2 * (1 + t) * (-2 / (1 + t) * s) = -s := by
    intro t s h; field_simp
  unfold Y12A AY12
  dsimp only
  rw [e _ _ h1, e _ _ h2, hs, G2ya_recip hl, G3ya_recip hl]
  ring

theorem X12C_recip (xi : ℝ) : X12C xi lam = lam ^ 3 * X12C xi (1 / lam) := by
  unfold X12C
  dsimp only
  generalize Real.log xi⁻¹ = L
  generalize zeta3 1 = z
  field_simp
  ring

theorem Y12C_recip (xi : ℝ) : Y12C xi lam = lam ^ 3 * Y12C xi (1 / lam) := by
  have hs := intermediate_recip (f0 := Fyc) (f1 := Nearfield.Z) hl 100 (c := lam ^ 3)
    (fun m hm => extra_recip hm hl.ne' (Qyc_recip hm hl.ne')) (by simp [Nearfield.Z])
    (G4yc_recip hl) (G5yc_recip hl)
  have h1 : (1 : ℝ) + lam ≠ 0 := by positivity
  have h2 : (1 : ℝ) + 1 / lam ≠ 0 := by positivity
  have e : ∀ t s : ℝ, 1 + t ≠ 0 → (1 + t) ^ 3 / 8 * (8 / (1 + t) ^ 3 * s) = s := by
    intro t s h; field_simp
  unfold Y12C CY12
  dsimp only
  rw [e _ _ h1, e _ _ h2, hs, G4yc_recip hl, G5yc_recip hl]
  ring

theorem X12M_recip (xi : ℝ) : X12M xi lam = lam ^ 3 * X12M xi (1 / lam) := by
  have hs := intermediate_recip (f0 := Fxm) hl 100 (c := lam ^ 3)
    (fun m hm => extra_recip hm hl.ne' (Pxm_recip hm hl.ne')) (G4xm_recip hl)
    (G5xm_recip hl) (G6xm_recip hl)
  have h1 : (1 : ℝ) + lam ≠ 0 := by positivity
  have h2 : (1 : ℝ) + 1 / lam ≠ 0 := by positivity
  have e : ∀ t s : ℝ, 1 + t ≠ 0 → 1 / 8 * (1 + t) ^ 3 * (8 / (1 + t) ^ 3 * s) = s := by
    intro t s h; field_simp
  unfold X12M MX12
  dsimp only
  rw [e _ _ h1, e _ _ h2, hs, G4xm_recip hl, G5xm_recip hl, G6xm_recip hl]
  ring

theorem Y12M_recip (xi : ℝ) : Y12M xi lam = lam ^ 3 * Y12M xi (1 / lam) := by
  have hs := intermediate_recip (f0 := Fym) (f1 := Nearfield.Z) hl 130 (c := lam ^ 3)
    (fun m hm => extra_recip hm hl.ne' (Pym_recip hm hl.ne')) (by simp [Nearfield.Z])
    (G5ym_recip hl) (G6ym_recip hl)
  have h1 : (1 : ℝ) + lam ≠ 0 := by positivity
  have h2 : (1 : ℝ) + 1 / lam ≠ 0 := by positivity
  have e : ∀ t s : ℝ, 1 + t ≠ 0 → 1 / 8 * (1 + t) ^ 3 * (8 / (1 + t) ^ 3 * s) = s := by
    intro t s h; field_simp
  unfold Y12M MY12
  dsimp only
  rw [e _ _ h1, e _ _ h2, hs, G5ym_recip hl, G6ym_recip hl]
  ring

theorem Z12M_recip (xi : ℝ) : Z12M xi lam = lam ^ 3 * Z12M xi (1 / lam) := by
  have hF : ∀ m, ∀ t : ℝ, 0 < t →
      Fzm_with_sum_coeff m t = (1 + t) ^ (-(m : ℤ)) * (t ^ (m % 2) * polyS (Pzm 2) m t) := by
    intro m t ht
    unfold Fzm_with_sum_coeff polyS
    rw [mul_sum, mul_sum]
    refine sum_congr rfl fun q _ => ?_
    have h1 : (1 : ℝ) + t ≠ 0 := by positivity
    rw [zpow_sub₀ h1, zpow_neg, zpow_natCast, zpow_natCast, div_pow]
    field_simp
  have hs := intermediate_recip' (f0 := Fzm_with_sum_coeff) (f1 := Nearfield.Z) (f2 := Nearfield.Z)
    (f3 := G3zm) 200 (c := lam ^ 3) (lam := lam)
    (fun m hm => by
      have h2 : (1 : ℝ) + 1 / lam ≠ 0 := by positivity
      rw [hF m lam hl, hF m (1 / lam) (by positivity), hm, Pzm_recip hm hl.ne', shift_recip hl,
        zpow_neg lam, zpow_natCast]
      field_simp
      ring) (by simp [Nearfield.Z])
    (by simp [Nearfield.Z]) (G3zm_recip hl)
  have h1 : (1 : ℝ) + lam ≠ 0 := by positivity
  have h2 : (1 : ℝ) + 1 / lam ≠ 0 := by positivity
  have e : ∀ t s : ℝ, 1 + t ≠ 0 → 1 / 8 * (1 + t) ^ 3 * (8 / (1 + t) ^ 3 * s) = s := by
    intro t s h; field_simp
  unfold Z12M MZ12
  dsimp only
  rw [e _ _ h1, e _ _ h2, hs, G3zm_recip hl]
  ring

end

/-- **C46** (reciprocity). The functions for the neighbour's motion that the near-field script tabulates, with
their series cut off where the script cuts them off, obey the reciprocal theorem exactly, for all sizes and all
gaps. -/
theorem C46_reciprocal {a b : ℝ} (ha : 0 < a) (hb : 0 < b) (xi : ℝ) :
    Reciprocal (nfOther xi (b / a)) (nfOther xi (a / b)) a b := by
  have hl : 0 < b / a := by positivity
  have e : 1 / (b / a) = a / b := by field_simp
  constructor
  · show a * X12A xi (b / a) = b * X12A xi (a / b)
    rw [X12A_recip hl, e]; field_simp
  · show a * Y12A xi (b / a) = b * Y12A xi (a / b)
    rw [Y12A_recip hl, e]; field_simp
  · show a ^ 3 * X12C xi (b / a) = b ^ 3 * X12C xi (a / b)
    rw [X12C_recip hl, e]; field_simp
  · show a ^ 3 * Y12C xi (b / a) = b ^ 3 * Y12C xi (a / b)
    rw [Y12C_recip hl, e]; field_simp
  · show a ^ 3 * X12M xi (b / a) = b ^ 3 * X12M xi (a / b)
    rw [X12M_recip hl, e]; field_simp
  · show a ^ 3 * Y12M xi (b / a) = b ^ 3 * Y12M xi (a / b)
    rw [Y12M_recip hl, e]; field_simp
  · show a ^ 3 * Z12M xi (b / a) = b ^ 3 * Z12M xi (a / b)
    rw [Z12M_recip hl, e]; field_simp

/-- The series are not all zero: the first term for forces along the axis is `3 / 2 * lam`. -/
example : polyS (Pxa 1) 1 2 = 3 := by
  have h1 : Px 1 1 1 0 = 0 := by
    rw [Px.eq_1]; simp
  have h0 : Px 1 1 0 0 = 1 := by
    rw [Px.eq_1]; simp [Nearfield.kron]
  have h2 : Px 1 1 0 1 = 3 / 2 := by
    have e1 : Px 1 1 0 (-2) = 0 := by rw [Px.eq_1]; simp
    have e2 : Vx 1 1 (-2) 0 = 0 := by
      have : Px 1 1 (-2) 0 = 0 := by rw [Px.eq_1]; simp
      rw [Vx.eq_1]; simp [this]
    rw [Px.eq_1]
    simp [Nearfield.binom, h0, e1, e2]
    norm_num [Nat.choose]
  simp [polyS, Finset.sum_range_succ, Pxa, h1, h2]

end SD
