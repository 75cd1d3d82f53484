import Verif.Lemmas.EwaldSplit
import Mathlib.Analysis.Calculus.MeanValue

/-!
# The sum over images and waves does not depend on where it is split: the derivative
-/

set_option autoImplicit false

namespace SD.Ewald

open Spec Filter Topology

/-! ## The derivative with respect to the splitting parameter -/

theorem scr_one_scale {lam : ℝ} (hl : 0 < lam) (n : ℕ) (s : ℝ) : scr lam n s = lam ^ (2 * n) * lam⁻¹ * scr 1 n (lam * s) := by
  have h := scr_scale (L := lam⁻¹) (by positivity) 1 n (lam * s)
  rw [one_div, inv_inv, inv_mul_cancel_left₀ hl.ne'] at h
  rw [h, inv_pow, div_inv_eq_mul]
  ring

theorem scr_hd {lam s : ℝ} (hl : 0 < lam) (hs : 0 < s) (n : ℕ) :
    HasDerivAt (fun lam => scr lam n s) (((2 * n - 1) * scr lam n s + s ^ 2 * scr lam (n + 1) s) / lam) lam := by
  have h1 : HasDerivAt (fun x : ℝ => x * s) s lam := by simpa using (hasDerivAt_id lam).mul_const s
  have h2 : HasDerivAt (fun x => scr 1 n (x * s)) (lam * s * scr 1 (n + 1) (lam * s) * s) lam :=
    HasDerivAt.comp (h₂ := scr 1 n) lam (scr_chain 1 n (lam * s) (by positivity)) h1
  have h3 := (((hasDerivAt_id lam).fun_pow (2 * n)).fun_mul (hasDerivAt_inv hl.ne')).fun_mul h2
  have e : (fun lam => scr lam n s) =ᶠ[𝓝 lam] fun x => id x ^ (2 * n) * x⁻¹ * scr 1 n (x * s) := by
    filter_upwards [lt_mem_nhds hl] with x hx
    exact scr_one_scale hx n s
  refine (h3.congr_of_eventuallyEq e).congr_deriv ?_
  rw [scr_one_scale hl n s, scr_one_scale hl (n + 1) s]
  simp only [id]
  cases n with
  | zero => simp; field_simp
  | succ n =>
    rw [show 2 * (n + 1) - 1 = 2 * n + 1 by omega, show 2 * (n + 1) = 2 * n + 2 by omega,
      show 2 * (n + 1 + 1) = 2 * n + 4 by omega]
    push_cast
    rw [pow_add, pow_add, pow_add]
    field_simp
    ring

theorem scr_one (lam : ℝ) {s : ℝ} (hs : 0 < s) :
    scr lam 1 s = erfc (lam * s) / s - 2 * lam / Real.sqrt Real.pi * Real.exp (-(lam ^ 2 * s ^ 2)) := by
  refine ((scr_chain lam).step (c := fun s => s * erfc (lam * s))
    (c' := fun s => erfc (lam * s) / s - 2 * lam / Real.sqrt Real.pi * Real.exp (-(lam ^ 2 * s ^ 2)))
    (fun t _ => (scr_zero lam t).symm) (fun t ht => ?_) s hs).symm
  have h0 : HasDerivAt (fun s : ℝ => lam * s) lam t := by simpa using (hasDerivAt_id t).const_mul lam
  have hE : HasDerivAt (fun s => erfc (lam * s)) (-(2 * lam / Real.sqrt Real.pi) * Real.exp (-(lam ^ 2 * t ^ 2))) t := by
    refine hd_congr ((erfc_deriv (lam * t)).comp t h0) (fun _ => rfl) ?_
    rw [show -(lam * t) ^ 2 = -(lam ^ 2 * t ^ 2) by ring]
    ring
  refine hd_congr ((hasDerivAt_id t).fun_mul hE) (fun _ => rfl) ?_
  simp only [id]
  field_simp
  ring

theorem scr_lam {lam s : ℝ} (hl : 0 < lam) (hs : 0 < s) (n : ℕ) :
    HasDerivAt (fun lam => scr lam n s) (-(2 / Real.sqrt Real.pi) * sqChain (lam ^ 2) n s) lam := by
  refine (scr_hd hl hs n).congr_deriv ?_
  revert s
  have hD : Chain fun n s => ((2 * n - 1) * scr lam n s + s ^ 2 * scr lam (n + 1) s) / lam := fun n s hs => by
    have h := ((((scr_chain lam n s hs).const_mul (2 * n - 1 : ℝ)).fun_add
      (((hasDerivAt_id s).fun_pow 2).fun_mul (scr_chain lam (n + 1) s hs))).div_const lam)
    refine hd_congr h (fun _ => rfl) ?_
    simp only [id]
    push_cast
    ring
  induction n with
  | zero =>
    intro s hs
    rw [scr_zero, scr_one lam hs]
    unfold sqChain
    simp
    have := Real.sqrt_pos.mpr Real.pi_pos
    field_simp
    ring
  | succ n ih =>
    intro s hs
    refine (hD.step (n := n) (c := fun s => -(2 / Real.sqrt Real.pi) * sqChain (lam ^ 2) n s)
      (c' := fun s => -(2 / Real.sqrt Real.pi) * sqChain (lam ^ 2) (n + 1) s) (fun t ht => (ih ht).symm) (fun t ht => ?_) s hs).symm
    refine hd_congr ((sqChain_chain (lam ^ 2) n t ht).const_mul (-(2 / Real.sqrt Real.pi))) (fun _ => rfl) ?_
    ring

theorem near_lam {lam : ℝ} (hl : 0 < lam) (i j : Fin 3) {y : Vec3} (hy : y ≠ 0) :
    HasDerivAt (fun lam => nearJ lam i j y)
      (-(2 / Real.sqrt Real.pi) * T0 (pOf (sqChain (lam ^ 2))) (qOf (sqChain (lam ^ 2))) i j y) lam := by
  have hs := len_pos hy
  have h1 := scr_lam hl hs 1
  have h2 := scr_lam hl hs 2
  have h := (((h1.const_mul 2).fun_add (h2.const_mul (len y ^ 2))).const_mul (dlt i j)).fun_add ((h2.fun_neg).const_mul (y i * y j))
  have e : (fun lam => nearJ lam i j y) = fun lam => dlt i j * (2 * scr lam 1 (len y) + len y ^ 2 * scr lam 2 (len y))
      + y i * y j * -scr lam 2 (len y) := by
    funext lam
    rw [nearJ_eq lam i j hy]
    simp [T0, pJ, qJ, bump]
  rw [e]
  refine h.congr_deriv ?_
  simp [T0, pOf, qOf, bump]
  ring

/-- The derivative of a wave with respect to the splitting parameter. -/
noncomputable def waveD (lam : ℝ) (i j : Fin 3) (k : Vec3) : ℝ :=
  2 / Real.sqrt Real.pi * ((k i * k j - dlt i j * len k ^ 2) * ((6 * lam ^ 2 - len k ^ 2) / (4 * (lam ^ 2) ^ 2)
    * (Real.sqrt (Real.pi / lam ^ 2) ^ 3 * Real.exp (-(1 / (4 * lam ^ 2) * len k ^ 2)))))

theorem sqrt_cube {lam : ℝ} (hl : 0 < lam) : 2 / Real.sqrt Real.pi * Real.sqrt (Real.pi / lam ^ 2) ^ 3 = 2 * Real.pi / lam ^ 3 := by
  have hp := Real.sqrt_pos.mpr Real.pi_pos
  rw [Real.sqrt_div Real.pi_pos.le, Real.sqrt_sq hl.le, div_pow, show Real.sqrt Real.pi ^ 3 = Real.sqrt Real.pi * Real.sqrt Real.pi ^ 2 by ring,
    Real.sq_sqrt Real.pi_pos.le]
  field_simp

theorem wave_lam {lam : ℝ} (hl : 0 < lam) (i j : Fin 3) (k : Vec3) : HasDerivAt (fun lam => waveJ lam i j k) (waveD lam i j k) lam := by
  by_cases hk : k = 0
  · subst hk
    have l0 : len 0 = 0 := by unfold len; simp
    have e : (fun lam => waveJ lam i j 0) = fun _ => 0 := by funext lam; simp [waveJ, l0]
    rw [e]
    refine (hasDerivAt_const _ _).congr_deriv ?_
    simp [waveD, l0]
  have hs := len_pos hk
  have hu : HasDerivAt (fun lam : ℝ => len k ^ 2 / (4 * lam ^ 2)) (-(len k ^ 2 / (2 * lam ^ 3))) lam := by
    have := ((((hasDerivAt_id lam).fun_pow 2).const_mul 4).fun_inv (by simp only [id]; positivity)).const_mul (len k ^ 2)
    refine hd_congr this (fun x => by simp only [id]; rw [div_eq_mul_inv]) ?_
    simp only [id]
    field_simp
    ring
  have hw : HasDerivAt (fun lam : ℝ => len k ^ 4 / (8 * lam ^ 4)) (-(len k ^ 4 / (2 * lam ^ 5))) lam := by
    have := ((((hasDerivAt_id lam).fun_pow 4).const_mul 8).fun_inv (by simp only [id]; positivity)).const_mul (len k ^ 4)
    refine hd_congr this (fun x => by simp only [id]; rw [div_eq_mul_inv]) ?_
    simp only [id]
    field_simp
    ring
  have h := ((((hu.const_add 1).fun_add hw).const_mul (8 * Real.pi / len k ^ 2)).fun_mul hu.fun_neg.exp).const_mul
    (dlt i j - k i * k j / len k ^ 2)
  refine hd_congr h (fun x => rfl) ?_
  have e3 := sqrt_cube hl
  unfold waveD
  rw [show -(1 / (4 * lam ^ 2) * len k ^ 2) = -(len k ^ 2 / (4 * lam ^ 2)) by ring]
  generalize Real.exp (-(len k ^ 2 / (4 * lam ^ 2))) = E
  rw [show 2 / Real.sqrt Real.pi * ((k i * k j - dlt i j * len k ^ 2) * ((6 * lam ^ 2 - len k ^ 2) / (4 * (lam ^ 2) ^ 2)
    * (Real.sqrt (Real.pi / lam ^ 2) ^ 3 * E))) = (2 / Real.sqrt Real.pi * Real.sqrt (Real.pi / lam ^ 2) ^ 3) *
      ((k i * k j - dlt i j * len k ^ 2) * ((6 * lam ^ 2 - len k ^ 2) / (4 * (lam ^ 2) ^ 2) * E)) by ring, e3]
  generalize dlt i j = D
  generalize k i = x
  generalize k j = y
  generalize len k = s at hs ⊢
  field_simp
  ring

end SD.Ewald
