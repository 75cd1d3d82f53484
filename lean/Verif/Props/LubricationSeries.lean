import Verif.Lemmas.LubSeries
import Verif.Lemmas.GapModes
import Verif.Lemmas.FirstCoeffs

/-!
# The near-field functions as series

The resistance functions of two spheres are power series in the inverse distance. The code sums the first 100 or more
coefficients, which it finds from recurrences, and for the others takes the form they tend to, which can be summed to the
singular functions of the gap and a constant.
-/

set_option autoImplicit false

namespace SD

open Spec Nearfield Lub

/-! ## Lemmas -/

theorem inter_eq {lam : ℝ} (hl : 0 < lam) (F : ℕ → ℝ → ℝ) (f1 f2 f3 : ℝ → ℝ) (par : Parity) (N : ℕ) :
    intermediate_sum F f1 f2 f3 par lam N = ∑ m ∈ sumover par N, (coeff F lam m - f1 lam - 2 * (m : ℝ)⁻¹ * f2 lam
      + 4 * (m : ℝ)⁻¹ * ((m : ℝ) + 2)⁻¹ * f3 lam) := by
  unfold intermediate_sum
  refine Finset.sum_congr rfl fun m _ => ?_
  unfold coeff
  rw [zpow_neg, zpow_natCast, zpow_neg, zpow_natCast, mul_pow, div_eq_mul_inv, mul_inv]
  ring

theorem series_even (f : ℕ → ℝ) (g1 g2 g3 : ℝ) (n : ℕ) : NearSum 0 (continued (2 * n) f (lubTerm g1 g2 g3 2))
    (lub g1 g2 (f 0 - g1 / 4 - g3 + ∑ m ∈ sumover .even (2 * n), (f m - g1 - 2 * (m : ℝ)⁻¹ * g2
      + 4 * (m : ℝ)⁻¹ * ((m : ℝ) + 2)⁻¹ * g3)) g3) := by
  have h := near_cut (M := 2 * n) (N := n + 1) (f := f) (near_even g1 g2 g3) (fun k => by omega)
  convert h using 1
  funext xi
  rw [sumover_even, Finset.sum_range_succ']
  have e : ∀ k ∈ Finset.range n, f (2 * (k + 1) + 0) - lubTerm g1 g2 g3 2 (2 * (k + 1) + 0)
      = f (2 * k + 2) - g1 - 2 * ((2 * k + 2 : ℕ) : ℝ)⁻¹ * g2 + 4 * ((2 * k + 2 : ℕ) : ℝ)⁻¹ * (((2 * k + 2 : ℕ) : ℝ) + 2)⁻¹ * g3 :=
    fun k _ => by
      rw [show 2 * (k + 1) + 0 = 2 * k + 2 from by ring]
      unfold lubTerm
      rw [div_eq_mul_inv, div_eq_mul_inv, mul_inv]
      ring
  rw [Finset.sum_congr rfl e]
  simp only [lubTerm, lub, mul_zero, Nat.cast_zero, div_zero, zero_mul, add_zero, sub_zero]
  ring

theorem series_odd (f : ℕ → ℝ) (g1 g2 g3 : ℝ) (n : ℕ) : NearSum 1 (continued (2 * n) f (lubTerm g1 g2 g3 2))
    (lub g1 g2 (1 / 4 * g1 + 2 * g2 * Real.log 2 - 2 * g3 + ∑ m ∈ sumover .odd (2 * n), (f m - g1 - 2 * (m : ℝ)⁻¹ * g2
      + 4 * (m : ℝ)⁻¹ * ((m : ℝ) + 2)⁻¹ * g3)) g3) := by
  have h := near_cut (M := 2 * n) (N := n) (f := f) (near_odd g1 g2 g3) (fun k => by omega)
  convert h using 1
  funext xi
  rw [sumover_odd]
  have e : ∀ k ∈ Finset.range n, f (2 * k + 1) - lubTerm g1 g2 g3 2 (2 * k + 1)
      = f (2 * k + 1) - g1 - 2 * ((2 * k + 1 : ℕ) : ℝ)⁻¹ * g2 + 4 * ((2 * k + 1 : ℕ) : ℝ)⁻¹ * (((2 * k + 1 : ℕ) : ℝ) + 2)⁻¹ * g3 :=
    fun k _ => by
      unfold lubTerm
      rw [div_eq_mul_inv, div_eq_mul_inv, mul_inv]
      ring
  rw [Finset.sum_congr rfl e]
  simp only [lub]
  ring

theorem series_even' (f : ℕ → ℝ) (g1 g2 g3 : ℝ) (n : ℕ) : NearSum 0 (continued (2 * n) f (lubTerm g1 g2 g3 (-2)))
    (lub g1 g2 (f 0 - g1 / 4 - g3 - g3 * 4 / (2 * n) / (2 * n + 2) + ∑ m ∈ sumover .even (2 * n), (f m - g1 - 2 * (m : ℝ)⁻¹ * g2
      + 4 * (m : ℝ)⁻¹ * ((m : ℝ) + 2)⁻¹ * g3)) g3) := by
  have h := near_cut (M := 2 * n) (N := n + 1) (f := f) (near_even' g1 g2 g3) (fun k => by omega)
  convert h using 1
  funext xi
  rw [sumover_even, Finset.sum_range_succ']
  have e : ∀ k ∈ Finset.range n, f (2 * (k + 1) + 0) - lubTerm g1 g2 g3 (-2) (2 * (k + 1) + 0)
      = (f (2 * k + 2) - g1 - 2 * ((2 * k + 2 : ℕ) : ℝ)⁻¹ * g2)
        + g3 * (4 / (((2 * k + 2 : ℕ) : ℝ) * (((2 * k + 2 : ℕ) : ℝ) + -2))) :=
    fun k _ => by
      rw [show 2 * (k + 1) + 0 = 2 * k + 2 from by ring]
      unfold lubTerm
      ring
  have e' : ∀ k ∈ Finset.range n, f (2 * k + 2) - g1 - 2 * ((2 * k + 2 : ℕ) : ℝ)⁻¹ * g2
      + 4 * ((2 * k + 2 : ℕ) : ℝ)⁻¹ * (((2 * k + 2 : ℕ) : ℝ) + 2)⁻¹ * g3 = (f (2 * k + 2) - g1 - 2 * ((2 * k + 2 : ℕ) : ℝ)⁻¹ * g2)
        + g3 * (4 / (((2 * k + 2 : ℕ) : ℝ) * (((2 * k + 2 : ℕ) : ℝ) + 2))) :=
    fun k _ => by
      rw [div_eq_mul_inv, mul_inv]
      ring
  rw [Finset.sum_congr rfl e, Finset.sum_congr rfl e', Finset.sum_add_distrib, Finset.sum_add_distrib, ← Finset.mul_sum,
    ← Finset.mul_sum, tele_even]
  simp only [lubTerm, lub, mul_zero, Nat.cast_zero, div_zero, zero_mul, add_zero, sub_zero]
  ring

theorem series_odd' (f : ℕ → ℝ) (g1 g2 g3 : ℝ) (n : ℕ) : NearSum 1 (continued (2 * n) f (lubTerm g1 g2 g3 (-2)))
    (lub g1 g2 (1 / 4 * g1 + 2 * g2 * Real.log 2 + 2 * g3 - 4 * g3 - g3 * 4 / (2 * n - 1) / (2 * n + 1)
      + ∑ m ∈ sumover .odd (2 * n), (f m - g1 - 2 * (m : ℝ)⁻¹ * g2 + 4 * (m : ℝ)⁻¹ * ((m : ℝ) + 2)⁻¹ * g3)) g3) := by
  have h := near_cut (M := 2 * n) (N := n) (f := f) (near_odd' g1 g2 g3) (fun k => by omega)
  convert h using 1
  funext xi
  rw [sumover_odd]
  have e : ∀ k ∈ Finset.range n, f (2 * k + 1) - lubTerm g1 g2 g3 (-2) (2 * k + 1)
      = (f (2 * k + 1) - g1 - 2 * ((2 * k + 1 : ℕ) : ℝ)⁻¹ * g2)
        + g3 * (4 / (((2 * k + 1 : ℕ) : ℝ) * (((2 * k + 1 : ℕ) : ℝ) + -2))) :=
    fun k _ => by
      unfold lubTerm
      ring
  have e' : ∀ k ∈ Finset.range n, f (2 * k + 1) - g1 - 2 * ((2 * k + 1 : ℕ) : ℝ)⁻¹ * g2
      + 4 * ((2 * k + 1 : ℕ) : ℝ)⁻¹ * (((2 * k + 1 : ℕ) : ℝ) + 2)⁻¹ * g3 = (f (2 * k + 1) - g1 - 2 * ((2 * k + 1 : ℕ) : ℝ)⁻¹ * g2)
        + g3 * (4 / (((2 * k + 1 : ℕ) : ℝ) * (((2 * k + 1 : ℕ) : ℝ) + 2))) :=
    fun k _ => by
      rw [div_eq_mul_inv, mul_inv]
      ring
  rw [Finset.sum_congr rfl e, Finset.sum_congr rfl e', Finset.sum_add_distrib, Finset.sum_add_distrib, ← Finset.mul_sum,
    ← Finset.mul_sum, tele_odd]
  simp only [lub]
  ring

theorem near_eq {p : ℕ} {c : ℕ → ℝ} {F G : ℝ → ℝ} (h : NearSum p c F) (e : ∀ xi, G xi = F xi) : NearSum p c G := by
  rwa [show G = F from funext e]

theorem Px_start (c n : ℕ) : Px c n 0 0 = Nearfield.kron c n := by rw [Px, if_pos ⟨rfl, rfl⟩]
theorem Py_start (cp cq : ℕ → ℝ) (n : ℕ) : Py cp cq n 0 0 = cp n := by rw [Py, if_pos ⟨rfl, rfl⟩]
theorem Qy_start (cp cq : ℕ → ℝ) (n : ℕ) : Qy cp cq n 0 0 = cq n := by rw [Qy, if_pos ⟨rfl, rfl⟩]
theorem Pzm_start (n : ℕ) : Pzm n 0 0 = Nearfield.kron 2 n := by rw [Pzm, if_pos ⟨rfl, rfl⟩]

/-- The first coefficients. -/
theorem first_coeffs (lam : ℝ) : coeff Fxa lam 0 = 1 ∧ coeff Fya lam 0 = 1 ∧ coeff Fyb lam 0 = 0 ∧ coeff Fyc lam 0 = 1 ∧
    coeff Fxg lam 0 = 0 ∧ coeff Fyg lam 0 = 0 ∧ coeff Fyh lam 0 = 0 ∧ coeff Fxm lam 0 = 1 ∧ coeff Fym lam 0 = 1 ∧
    Fzm_with_sum_coeff 0 lam = 1 := by
  refine ⟨?_, ?_, ?_, ?_, ?_, ?_, ?_, ?_, ?_, ?_⟩ <;>
    simp [coeff, Fxa, Fya, Fyb, Fyc, Fxg, Fyg, Fyh, Fxm, Fym, Fzm_with_sum_coeff, Pxa, Pya, Qya, Pyc, Qyc, Pxm, Pym, Px_start,
      Py_start, Qy_start, Pzm_start, Nearfield.kron]

/-! ## Theorems -/

/-- **C100** (forces). The four functions that give the forces on two moving spheres, for every size ratio. As the gap closes each is, up
to an error in proportion to the gap, the sum of a series in the inverse distance: the first 100 coefficients come from the
recurrences, and the others continue the form `g1 + 2 g2 / m - 4 g3 / (m (m - 2))` or `g1 + 2 g2 / m - 4 g3 / (m (m + 2))`. -/
theorem C100_A {lam : ℝ} (hl : 0 < lam) :
    NearSum 0 (continued 100 (coeff Fxa lam) (lubTerm (G1xa lam) (G2xa lam) (G3xa lam) (-2))) (fun xi => X11A xi lam) ∧
    NearSum 1 (fun m => -continued 100 (coeff Fxa lam) (lubTerm (G1xa lam) (G2xa lam) (G3xa lam) 2) m) (fun xi => X12A xi lam) ∧
    NearSum 0 (continued 100 (coeff Fya lam) (lubTerm 0 (G2ya lam) (G3ya lam) (-2))) (fun xi => Y11A xi lam) ∧
    NearSum 1 (fun m => -continued 100 (coeff Fya lam) (lubTerm 0 (G2ya lam) (G3ya lam) (-2)) m) (fun xi => Y12A xi lam) := by
  refine ⟨?_, ?_, ?_, ?_⟩
  · refine near_eq (series_even' (coeff Fxa lam) (G1xa lam) (G2xa lam) (G3xa lam) 50) fun xi => ?_
    rw [X11A_lub]
    simp only [lub, AX11, inter_eq hl, (first_coeffs lam).1, Nat.reduceMul]
    generalize (Finset.sum (sumover _ _) _ : ℝ) = w
    have : 1 + lam ≠ 0 := by positivity
    push_cast
    first
      | (field_simp; done)
      | (field_simp; ring)
      | ring
  · refine near_eq (near_neg (series_odd (coeff Fxa lam) (G1xa lam) (G2xa lam) (G3xa lam) 50)) fun xi => ?_
    rw [X12A_lub]
    simp only [lub, AX12, inter_eq hl, Nat.reduceMul]
    generalize (Finset.sum (sumover _ _) _ : ℝ) = w
    have : 1 + lam ≠ 0 := by positivity
    push_cast
    first
      | (field_simp; done)
      | (field_simp; ring)
      | ring
  · refine near_eq (series_even' (coeff Fya lam) 0 (G2ya lam) (G3ya lam) 50) fun xi => ?_
    rw [Y11A_lub]
    simp only [lub, AY11, inter_eq hl, (first_coeffs lam).2.1, Z, Nat.reduceMul]
    generalize (Finset.sum (sumover _ _) _ : ℝ) = w
    have : 1 + lam ≠ 0 := by positivity
    push_cast
    first
      | (field_simp; done)
      | (field_simp; ring)
      | ring
  · refine near_eq (near_neg (series_odd' (coeff Fya lam) 0 (G2ya lam) (G3ya lam) 50)) fun xi => ?_
    rw [Y12A_lub]
    simp only [lub, AY12, inter_eq hl, Z, Nat.reduceMul]
    generalize (Finset.sum (sumover _ _) _ : ℝ) = w
    have : 1 + lam ≠ 0 := by positivity
    push_cast
    first
      | (field_simp; done)
      | (field_simp; ring)
      | ring

/-- **C100** (torques of moving spheres). The same for the two functions that give the torques on moving spheres. -/
theorem C100_B {lam : ℝ} (hl : 0 < lam) :
    NearSum 1 (continued 100 (coeff Fyb lam) (lubTerm 0 (G2yb lam) (G3yb lam) 2)) (fun xi => Y11B xi lam) ∧
    NearSum 0 (fun m => -continued 100 (coeff Fyb lam) (lubTerm 0 (G2yb lam) (G3yb lam) 2) m) (fun xi => Y12B xi lam) := by
  refine ⟨?_, ?_⟩
  · refine near_eq (series_odd (coeff Fyb lam) 0 (G2yb lam) (G3yb lam) 50) fun xi => ?_
    rw [Y11B_lub]
    simp only [lub, BY11, inter_eq hl, Z, Nat.reduceMul]
    generalize (Finset.sum (sumover _ _) _ : ℝ) = w
    have : 1 + lam ≠ 0 := by positivity
    push_cast
    first
      | (field_simp; done)
      | (field_simp; ring)
      | ring
  · refine near_eq (near_neg (series_even (coeff Fyb lam) 0 (G2yb lam) (G3yb lam) 50)) fun xi => ?_
    rw [Y12B_lub]
    simp only [lub, BY12, inter_eq hl, (first_coeffs lam).2.2.1, Z, Nat.reduceMul]
    generalize (Finset.sum (sumover _ _) _ : ℝ) = w
    have : 1 + lam ≠ 0 := by positivity
    push_cast
    first
      | (field_simp; done)
      | (field_simp; ring)
      | ring

/-- **C100** (torques of turning spheres). The same for the two functions that give the torques on spheres turning across the line of centres. The odd
powers have a limiting form of their own. -/
theorem C100_C {lam : ℝ} (hl : 0 < lam) :
    NearSum 0 (continued 100 (coeff Fyc lam) (lubTerm 0 (G2yc lam) (G3yc lam) 2)) (fun xi => Y11C xi lam) ∧
    NearSum 1 (continued 100 (coeff Fyc lam) (lubTerm 0 (G4yc lam) (G5yc lam) 2)) (fun xi => Y12C xi lam) := by
  refine ⟨?_, ?_⟩
  · refine near_eq (series_even (coeff Fyc lam) 0 (G2yc lam) (G3yc lam) 50) fun xi => ?_
    rw [Y11C_lub]
    simp only [lub, CY11, inter_eq hl, (first_coeffs lam).2.2.2.1, Z, Nat.reduceMul]
    generalize (Finset.sum (sumover _ _) _ : ℝ) = w
    have : 1 + lam ≠ 0 := by positivity
    push_cast
    first
      | (field_simp; done)
      | (field_simp; ring)
      | ring
  · refine near_eq (series_odd (coeff Fyc lam) 0 (G4yc lam) (G5yc lam) 50) fun xi => ?_
    rw [Y12C_lub]
    simp only [lub, CY12, inter_eq hl, Z, Nat.reduceMul]
    generalize (Finset.sum (sumover _ _) _ : ℝ) = w
    have : 1 + lam ≠ 0 := by positivity
    push_cast
    first
      | (field_simp; done)
      | (field_simp; ring)
      | ring

/-- **C100** (stresslets of moving spheres). The same for the four functions that give the stresslets of moving spheres. -/
theorem C100_G {lam : ℝ} (hl : 0 < lam) :
    NearSum 1 (continued 100 (coeff Fxg lam) (lubTerm (G1xg lam) (G2xg lam) (G3xg lam) 2)) (fun xi => X11G xi lam) ∧
    NearSum 0 (fun m => -continued 100 (coeff Fxg lam) (lubTerm (G1xg lam) (G2xg lam) (G3xg lam) 2) m) (fun xi => X12G xi lam) ∧
    NearSum 1 (continued 100 (coeff Fyg lam) (lubTerm 0 (G2yg lam) (G3yg lam) 2)) (fun xi => Y11G xi lam) ∧
    NearSum 0 (fun m => -continued 100 (coeff Fyg lam) (lubTerm 0 (G2yg lam) (G3yg lam) 2) m) (fun xi => Y12G xi lam) := by
  refine ⟨?_, ?_, ?_, ?_⟩
  · refine near_eq (series_odd (coeff Fxg lam) (G1xg lam) (G2xg lam) (G3xg lam) 50) fun xi => ?_
    rw [X11G_lub]
    simp only [lub, GX11, inter_eq hl, Nat.reduceMul]
  · refine near_eq (near_neg (series_even (coeff Fxg lam) (G1xg lam) (G2xg lam) (G3xg lam) 50)) fun xi => ?_
    rw [X12G_lub]
    simp only [lub, GX12, inter_eq hl, (first_coeffs lam).2.2.2.2.1, Nat.reduceMul]
    generalize (Finset.sum (sumover _ _) _ : ℝ) = w
    have : 1 + lam ≠ 0 := by positivity
    push_cast
    first
      | (field_simp; done)
      | (field_simp; ring)
      | ring
  · refine near_eq (series_odd (coeff Fyg lam) 0 (G2yg lam) (G3yg lam) 50) fun xi => ?_
    rw [Y11G_lub]
    simp only [lub, GY11, inter_eq hl, Z, Nat.reduceMul]
    generalize (Finset.sum (sumover _ _) _ : ℝ) = w
    have : 1 + lam ≠ 0 := by positivity
    push_cast
    first
      | (field_simp; done)
      | (field_simp; ring)
      | ring
  · refine near_eq (near_neg (series_even (coeff Fyg lam) 0 (G2yg lam) (G3yg lam) 50)) fun xi => ?_
    rw [Y12G_lub]
    simp only [lub, GY12, inter_eq hl, (first_coeffs lam).2.2.2.2.2.1, Z, Nat.reduceMul]
    generalize (Finset.sum (sumover _ _) _ : ℝ) = w
    have : 1 + lam ≠ 0 := by positivity
    push_cast
    first
      | (field_simp; done)
      | (field_simp; ring)
      | ring

/-- **C100** (stresslets of turning spheres). The same for the two functions that give the stresslets of turning spheres. -/
theorem C100_H {lam : ℝ} (hl : 0 < lam) :
    NearSum 0 (continued 100 (coeff Fyh lam) (lubTerm 0 (G2yh lam) (G3yh lam) 2)) (fun xi => Y11H xi lam) ∧
    NearSum 1 (continued 100 (coeff Fyh lam) (lubTerm 0 (G5yh lam) (G6yh lam) 2)) (fun xi => Y12H xi lam) := by
  refine ⟨?_, ?_⟩
  · refine near_eq (series_even (coeff Fyh lam) 0 (G2yh lam) (G3yh lam) 50) fun xi => ?_
    rw [Y11H_lub]
    simp only [lub, HY11, inter_eq hl, (first_coeffs lam).2.2.2.2.2.2.1, Z, Nat.reduceMul]
    generalize (Finset.sum (sumover _ _) _ : ℝ) = w
    have : 1 + lam ≠ 0 := by positivity
    push_cast
    first
      | (field_simp; done)
      | (field_simp; ring)
      | ring
  · refine near_eq (series_odd (coeff Fyh lam) 0 (G5yh lam) (G6yh lam) 50) fun xi => ?_
    rw [Y12H_lub]
    simp only [lub, HY12, inter_eq hl, Z, Nat.reduceMul]
    generalize (Finset.sum (sumover _ _) _ : ℝ) = w
    have : 1 + lam ≠ 0 := by positivity
    push_cast
    first
      | (field_simp; done)
      | (field_simp; ring)
      | ring

/-- **C100** (stresslets of straining spheres). The same for the six functions that give the stresslets of spheres in a straining flow. Here 130, 150 or
200 coefficients come from the recurrences. -/
theorem C100_M {lam : ℝ} (hl : 0 < lam) :
    NearSum 0 (continued 100 (coeff Fxm lam) (lubTerm (G1xm lam) (G2xm lam) (G3xm lam) 2)) (fun xi => X11M xi lam) ∧
    NearSum 1 (continued 100 (coeff Fxm lam) (lubTerm (G4xm lam) (G5xm lam) (G6xm lam) 2)) (fun xi => X12M xi lam) ∧
    NearSum 0 (continued 130 (coeff Fym lam) (lubTerm 0 (G2ym lam) (G3ym lam) 2)) (fun xi => Y11M xi lam) ∧
    NearSum 1 (continued 130 (coeff Fym lam) (lubTerm 0 (G5ym lam) (G6ym lam) 2)) (fun xi => Y12M xi lam) ∧
    NearSum 0 (continued 150 (fun m => Fzm_with_sum_coeff m lam) (lubTerm 0 0 (G3zm lam) 2)) (fun xi => Z11M xi lam) ∧
    NearSum 1 (fun m => -continued 200 (fun m => Fzm_with_sum_coeff m lam) (lubTerm 0 0 (G3zm lam) 2) m) (fun xi => Z12M xi lam) := by
  refine ⟨?_, ?_, ?_, ?_, ?_, ?_⟩
  · refine near_eq (series_even (coeff Fxm lam) (G1xm lam) (G2xm lam) (G3xm lam) 50) fun xi => ?_
    rw [X11M_lub]
    simp only [lub, MX11, inter_eq hl, (first_coeffs lam).2.2.2.2.2.2.2.1, Nat.reduceMul]
    generalize (Finset.sum (sumover _ _) _ : ℝ) = w
    have : 1 + lam ≠ 0 := by positivity
    push_cast
    first
      | (field_simp; done)
      | (field_simp; ring)
      | ring
  · refine near_eq (series_odd (coeff Fxm lam) (G4xm lam) (G5xm lam) (G6xm lam) 50) fun xi => ?_
    rw [X12M_lub]
    simp only [lub, MX12, inter_eq hl, Nat.reduceMul]
    generalize (Finset.sum (sumover _ _) _ : ℝ) = w
    have : 1 + lam ≠ 0 := by positivity
    push_cast
    first
      | (field_simp; done)
      | (field_simp; ring)
      | ring
  · refine near_eq (series_even (coeff Fym lam) 0 (G2ym lam) (G3ym lam) 65) fun xi => ?_
    rw [Y11M_lub]
    simp only [lub, MY11, inter_eq hl, (first_coeffs lam).2.2.2.2.2.2.2.2.1, Z, Nat.reduceMul]
    generalize (Finset.sum (sumover _ _) _ : ℝ) = w
    have : 1 + lam ≠ 0 := by positivity
    push_cast
    first
      | (field_simp; done)
      | (field_simp; ring)
      | ring
  · refine near_eq (series_odd (coeff Fym lam) 0 (G5ym lam) (G6ym lam) 65) fun xi => ?_
    rw [Y12M_lub]
    simp only [lub, MY12, inter_eq hl, Z, Nat.reduceMul]
    generalize (Finset.sum (sumover _ _) _ : ℝ) = w
    have : 1 + lam ≠ 0 := by positivity
    push_cast
    first
      | (field_simp; done)
      | (field_simp; ring)
      | ring
  · refine near_eq (series_even (fun m => Fzm_with_sum_coeff m lam) 0 0 (G3zm lam) 75) fun xi => ?_
    rw [Z11M_lub]
    simp only [lub, MZ11, intermediate_sum_no_f0_coeff, (first_coeffs lam).2.2.2.2.2.2.2.2.2, Z, Nat.reduceMul]
    generalize (Finset.sum (sumover _ _) _ : ℝ) = w
    have : 1 + lam ≠ 0 := by positivity
    push_cast
    first
      | (field_simp; done)
      | (field_simp; ring)
      | ring
  · refine near_eq (near_neg (series_odd (fun m => Fzm_with_sum_coeff m lam) 0 0 (G3zm lam) 100)) fun xi => ?_
    rw [Z12M_lub]
    simp only [lub, MZ12, intermediate_sum_no_f0_coeff, Z, Nat.reduceMul]
    generalize (Finset.sum (sumover _ _) _ : ℝ) = w
    have : 1 + lam ≠ 0 := by positivity
    push_cast
    first
      | (field_simp; done)
      | (field_simp; ring)
      | ring

/-- **C100** (error). If the code sums all the right coefficients as far as number `M`, then it finds the right function up to
an error in proportion to the gap, plus what the later coefficients differ from their limiting form by. -/
theorem C100_error {p M : ℕ} {c f g : ℕ → ℝ} {F : ℝ → ℝ} (hF : NearSum p (continued M f g) F) (hc : ∀ m, m ≤ M → c m = f m)
    (hs : Summable fun k => |c (2 * k + p) - g (2 * k + p)|) :
    ∃ K, ∀ xi, 0 < xi → xi ≤ 1 → ∃ S, HasSum (fun k => c (2 * k + p) * (2 / (2 + xi)) ^ (2 * k + p)) S ∧
      |F xi - S| ≤ K * xi + neglected p M c g := by
  obtain ⟨K, hK⟩ := hF
  refine ⟨K, fun xi h0 h1 => ?_⟩
  obtain ⟨S, hS, hb⟩ := hK xi h0 h1
  have hx0 : 0 ≤ 2 / (2 + xi) := by positivity
  have hx1 : 2 / (2 + xi) ≤ 1 := by rw [div_le_one (by positivity)]; linarith
  have hs' : Summable fun k => if 2 * k + p ≤ M then 0 else |c (2 * k + p) - g (2 * k + p)| :=
    hs.of_nonneg_of_le (fun k => by split_ifs <;> positivity) (fun k => by split_ifs <;> first | positivity | exact le_rfl)
  have hle : ∀ k, ‖(c (2 * k + p) - continued M f g (2 * k + p)) * (2 / (2 + xi)) ^ (2 * k + p)‖
      ≤ if 2 * k + p ≤ M then 0 else |c (2 * k + p) - g (2 * k + p)| := fun k => by
    unfold continued
    split_ifs with h
    · rw [hc _ h, sub_self, zero_mul, norm_zero]
    · rw [norm_mul, Real.norm_eq_abs, Real.norm_eq_abs, abs_of_nonneg (pow_nonneg hx0 _)]
      exact mul_le_of_le_one_right (abs_nonneg _) (pow_le_one₀ hx0 hx1)
  have hd := Summable.of_norm_bounded hs' hle
  refine ⟨S + ∑' k, (c (2 * k + p) - continued M f g (2 * k + p)) * (2 / (2 + xi)) ^ (2 * k + p), ?_, ?_⟩
  · exact (hS.add hd.hasSum).congr_fun fun k => by ring
  · have := tsum_of_norm_bounded hs'.hasSum hle
    rw [Real.norm_eq_abs] at this
    unfold neglected
    rw [abs_le] at hb this ⊢
    constructor <;> linarith [hb.1, hb.2, this.1, this.2]

/-- **C100** (reflections). The first coefficients are those of the method of reflections, for spheres of radii `a` and `b` at
the distance `r`. Along the line of centres a sphere sees the flow `3 b / 2 r` of the other; across it, `3 b / 4 r`; the force
on it changes in each reflection by that factor, and in the third order by the curvature of the flows besides. The torques,
stresslets and the flows of turning and straining spheres come in at the orders at which they act. -/
theorem C100_reflections {a b r : ℝ} (ha : 0 < a) (hb : 0 < b) (hr : 0 < r) :
    (orderTerm Fxa a b r 0 = 1 ∧ orderTerm Fxa a b r 1 = 3 * b / (2 * r) ∧
      orderTerm Fxa a b r 2 = 3 * b / (2 * r) * (3 * a / (2 * r)) ∧
      orderTerm Fxa a b r 3 = 3 * b / (2 * r) * (3 * a / (2 * r)) * (3 * b / (2 * r)) - b * (a ^ 2 + b ^ 2) / (2 * r ^ 3)) ∧
    (orderTerm Fya a b r 0 = 1 ∧ orderTerm Fya a b r 1 = 3 * b / (4 * r) ∧
      orderTerm Fya a b r 2 = 3 * b / (4 * r) * (3 * a / (4 * r)) ∧
      orderTerm Fya a b r 3 = 3 * b / (4 * r) * (3 * a / (4 * r)) * (3 * b / (4 * r)) + b * (a ^ 2 + b ^ 2) / (4 * r ^ 3)) ∧
    (orderTerm Fyb a b r 0 = 0 ∧ orderTerm Fyb a b r 1 = 0 ∧ orderTerm Fyb a b r 2 = -(3 * a * b / (2 * r ^ 2)) ∧
      orderTerm Fyb a b r 3 = -(3 * a * b / (2 * r ^ 2)) * (3 * a / (4 * r))) ∧
    (orderTerm Fyc a b r 0 = 1 ∧ orderTerm Fyc a b r 1 = 0 ∧ orderTerm Fyc a b r 2 = 0 ∧
      orderTerm Fyc a b r 3 = b ^ 3 / (2 * r ^ 3)) ∧
    (orderTerm Fxg a b r 0 = 0 ∧ orderTerm Fxg a b r 1 = 0 ∧ orderTerm Fxg a b r 2 = 15 * a * b / (4 * r ^ 2) ∧
      orderTerm Fxg a b r 3 = 15 * a * b / (4 * r ^ 2) * (3 * a / (2 * r))) ∧
    (orderTerm Fyh a b r 0 = 0 ∧ orderTerm Fyh a b r 1 = 0 ∧ orderTerm Fyh a b r 2 = 0 ∧
      orderTerm Fyh a b r 3 = 5 * b ^ 3 / (4 * r ^ 3)) ∧
    (orderTerm Fxm a b r 0 = 1 ∧ orderTerm Fxm a b r 1 = 0 ∧ orderTerm Fxm a b r 2 = 0 ∧
      orderTerm Fxm a b r 3 = 5 * b ^ 3 / r ^ 3) ∧
    (orderTerm Fym a b r 0 = 1 ∧ orderTerm Fym a b r 1 = 0 ∧ orderTerm Fym a b r 2 = 0 ∧
      orderTerm Fym a b r 3 = -(5 * b ^ 3 / (2 * r ^ 3))) := by
  have hab : a + b ≠ 0 := by positivity
  have h2 : ∀ m : ℕ, ∀ x : ℝ, x / (2 * (1 + b / a)) ^ m * ((a + b) / r) ^ m = x * (a / (2 * r)) ^ m := fun m x => by
    rw [div_mul_eq_mul_div, mul_div_assoc, ← div_pow]
    congr 2
    field_simp
  have e1 : Pya = Py k1 k0 := rfl
  have e2 : Qya = Qy k1 k0 := rfl
  have e3 : Pyc = Py k0 k1 := rfl
  have e4 : Qyc = Qy k0 k1 := rfl
  have e5 : Pym = Py k2 k0 := rfl
  refine ⟨⟨?_, ?_, ?_, ?_⟩, ⟨?_, ?_, ?_, ?_⟩, ⟨?_, ?_, ?_, ?_⟩, ⟨?_, ?_, ?_, ?_⟩, ⟨?_, ?_, ?_, ?_⟩, ⟨?_, ?_, ?_, ?_⟩,
    ⟨?_, ?_, ?_, ?_⟩, ⟨?_, ?_, ?_, ?_⟩⟩ <;>
  · unfold orderTerm coeff
    rw [h2]
    norm_num [Fxa, Fya, Fyb, Fyc, Fxg, Fyh, Fxm, Fym, Finset.sum_range_succ, Pxa, e1, e2, e3, e4, Pxm, e5, px1_110,
      px1_100, px1_101, px1_120, px1_111, px1_200, px1_102, px1_130, px1_121, px1_201, px1_112, px1_210, px1_103,
      py1_110, py1_100, py1_101, py1_120, py1_111, qy1_100, py1_102, py1_130, py1_121, qy1_101, py1_112, qy1_110,
      py1_103, qy1_120, qy1_111, qy1_102, qy1_130, qy1_121, qy1_112, qy1_103, qy2_110, qy2_101, qy2_120, qy2_111,
      qy2_102, qy2_130, qy2_121, qy2_100, py2_200, qy2_112, qy2_103, px1_220, px1_211, px1_202, px1_230, px1_221,
      px1_212, px1_203, py2_210, py2_201, py2_220, py2_211, py2_202, py2_230, py2_221, py2_212, py2_203, px2_210,
      px2_201, px2_220, px2_211, px2_202, px2_230, px2_221, px2_200, px2_212, px2_203, py3_210, py3_201, py3_220,
      py3_211, py3_202, py3_230, py3_221, py3_200, py3_212, py3_203]
    try field_simp
    try ring

/-! ## A concrete case -/

/-- Spheres whose radii are as 1 to 3: the functions of the forces are series, up to the gap. -/
example : NearSum 0 (continued 100 (coeff Fxa 3) (lubTerm (G1xa 3) (G2xa 3) (G3xa 3) (-2))) (fun xi => X11A xi 3) :=
  (C100_A (by norm_num)).1

/-- Coefficients that leave their limiting form by `(1 / 2) ^ m` beyond number 100: the hypotheses of the error bound hold. -/
noncomputable def leaving (f g : ℕ → ℝ) (m : ℕ) : ℝ := if m ≤ 100 then f m else g m + (1 / 2) ^ m

example : ∃ K, ∀ xi, 0 < xi → xi ≤ 1 → ∃ S,
    HasSum (fun k => leaving (coeff Fxa 3) (lubTerm (G1xa 3) (G2xa 3) (G3xa 3) (-2)) (2 * k + 0) * (2 / (2 + xi)) ^ (2 * k + 0)) S ∧
      |X11A xi 3 - S| ≤ K * xi + neglected 0 100 (leaving (coeff Fxa 3) (lubTerm (G1xa 3) (G2xa 3) (G3xa 3) (-2)))
        (lubTerm (G1xa 3) (G2xa 3) (G3xa 3) (-2)) := by
  refine C100_error (C100_A (by norm_num)).1 (fun m hm => by rw [leaving, if_pos hm]) ?_
  refine (summable_nat_add_iff 51).1 ?_
  refine (summable_geometric_of_lt_one (r := (1 / 4 : ℝ)) (by norm_num) (by norm_num)).of_nonneg_of_le (fun _ => abs_nonneg _) fun k => ?_
  rw [leaving, if_neg (by omega), add_sub_cancel_left, abs_of_nonneg (by positivity), add_zero, pow_mul]
  norm_num only
  rw [pow_add]
  refine mul_le_of_le_one_right (by positivity) (by norm_num)

/-- Two spheres of radii 1 and 3 at the distance 5: the third reflection. -/
example : orderTerm Fxa 1 3 5 3 = 3 * 3 / (2 * 5) * (3 * 1 / (2 * 5)) * (3 * 3 / (2 * 5)) - 3 * (1 ^ 2 + 3 ^ 2) / (2 * 5 ^ 3) :=
  (C100_reflections (by norm_num) (by norm_num) (by norm_num)).1.2.2.2

end SD
