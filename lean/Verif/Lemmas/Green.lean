import Verif.Model.Green
import Verif.Spec.FarField
import Mathlib.Analysis.Calculus.FDeriv.Symmetric
import Mathlib.Analysis.Calculus.ContDiff.Operations
import Mathlib.Tactic.FieldSimp
import Mathlib.Tactic.LinearCombination

/-!
# Derivatives of the Oseen tensor
-/

set_option autoImplicit false

namespace SD

open Spec

theorem len_sq (r : Vec3) : len r ^ 2 = r 0 ^ 2 + r 1 ^ 2 + r 2 ^ 2 := by
  unfold len
  rw [Real.sq_sqrt (Finset.sum_nonneg fun i _ => sq_nonneg _), Fin.sum_univ_three]

theorem norm3_eq_len (r : Vec3) : norm3 r = len r := by
  unfold norm3 len; rw [Fin.sum_univ_three]

theorem len_nonneg (r : Vec3) : 0 ≤ len r := Real.sqrt_nonneg _

theorem sumsq_pos {r : Vec3} (h : r ≠ 0) : 0 < ∑ i, r i ^ 2 := by
  obtain ⟨i, hi⟩ := Function.ne_iff.mp h
  exact Finset.sum_pos' (fun i _ => sq_nonneg _) ⟨i, Finset.mem_univ _, by
    have : r i ≠ 0 := hi
    positivity⟩

theorem len_pos {r : Vec3} (h : r ≠ 0) : 0 < len r := Real.sqrt_pos.mpr (sumsq_pos h)

/-- Replace the function and the derivative by equal ones. -/
theorem hd_congr {f g : ℝ → ℝ} {d e x : ℝ} (h : HasDerivAt f d x) (hf : ∀ t, g t = f t)
    (hd : e = d) : HasDerivAt g e x := by
  have : g = f := funext hf
  rw [this, hd]; exact h

theorem coord_deriv (r : Vec3) (l i : Fin 3) :
    HasDerivAt (fun t => Function.update r l t i) (dlt i l) (r l) := by
  unfold dlt
  by_cases h : i = l
  · subst h
    simp only [Function.update_self, if_true]
    exact hasDerivAt_id _
  · simp only [Function.update_of_ne h, if_neg h]
    exact hasDerivAt_const _ _

theorem len_deriv {r : Vec3} (h : r ≠ 0) (l : Fin 3) :
    HasDerivAt (fun t => len (Function.update r l t)) (r l / len r) (r l) := by
  have h1 : HasDerivAt (fun t => ∑ i, Function.update r l t i ^ 2)
      (∑ i, 2 * r i * dlt i l) (r l) := by
    apply HasDerivAt.fun_sum
    intro i _
    have := (coord_deriv r l i).fun_pow 2
    simpa using this
  have h2 := h1.sqrt (by simpa using (sumsq_pos h).ne')
  have e : (∑ i, 2 * r i * dlt i l) = 2 * r l := by
    unfold dlt; simp
  rw [e] at h2
  simp only [Function.update_eq_self] at h2
  unfold len
  refine hd_congr h2 (fun t => rfl) ?_
  have : 0 < √(∑ i, r i ^ 2) := len_pos h
  field_simp

theorem inv_pow_deriv {r : Vec3} (h : r ≠ 0) (l : Fin 3) (n : ℕ) :
    HasDerivAt (fun t => 1 / len (Function.update r l t) ^ n)
      (-(n * r l / len r ^ (n + 2))) (r l) := by
  have hs := len_pos h
  have h1 := ((len_deriv h l).fun_pow n).fun_inv (by
    simp only [Function.update_eq_self]; positivity)
  simp only [Function.update_eq_self] at h1
  refine hd_congr h1 (fun t => by simp) ?_
  cases n with
  | zero => simp
  | succ n =>
    simp only [Nat.add_sub_cancel]
    field_simp
    ring

/-- A function equal to `f` off the origin has the same partial derivatives off the origin. -/
theorem pd_congr {f g : Vec3 → ℝ} (h : ∀ r, r ≠ 0 → f r = g r) {r : Vec3} (hr : r ≠ 0)
    (l : Fin 3) : pd l f r = pd l g r := by
  unfold pd
  apply Filter.EventuallyEq.deriv_eq
  have hc : Continuous fun t => Function.update r l t := continuous_const.update l continuous_id
  have : ∀ᶠ t in nhds (r l), Function.update r l t ≠ 0 := by
    apply hc.continuousAt.eventually_ne
    simpa using hr
  filter_upwards [this] with t ht using h _ ht

theorem pd_of_hasDerivAt {f : Vec3 → ℝ} {r : Vec3} {l : Fin 3} {d : ℝ}
    (h : HasDerivAt (fun t => f (Function.update r l t)) d (r l)) : pd l f r = d := h.deriv

theorem kron_eq (i j : Fin 3) : kron i j = dlt i j := rfl
theorem dlt_comm (i j : Fin 3) : dlt i j = dlt j i := by unfold dlt; simp [eq_comm]

/-- First derivative of the Oseen tensor. -/
theorem oseen_deriv {r : Vec3} (h : r ≠ 0) (l i j : Fin 3) :
    HasDerivAt (fun t => oseen i j (Function.update r l t)) (D_J r (len r) l i j) (r l) := by
  have a := ((inv_pow_deriv h l 1).const_mul (dlt i j)).fun_add
    (((coord_deriv r l i).fun_mul (coord_deriv r l j)).fun_mul (inv_pow_deriv h l 3))
  simp only [Function.update_eq_self] at a
  have hs := len_pos h
  refine hd_congr a (fun t => ?_) ?_
  · unfold oseen; ring
  · unfold D_J; simp only [kron_eq]
    push_cast
    field_simp
    ring

theorem D_J_deriv {r : Vec3} (h : r ≠ 0) (m l i j : Fin 3) :
    HasDerivAt (fun t => D_J (Function.update r m t) (len (Function.update r m t)) l i j)
      (DD_J r (len r) m l i j) (r m) := by
  have ci := coord_deriv r m i
  have cj := coord_deriv r m j
  have cl := coord_deriv r m l
  have a := ((((cl.const_mul (-dlt i j)).fun_add (cj.const_mul (dlt i l))).fun_add
    (ci.const_mul (dlt j l))).fun_mul (inv_pow_deriv h m 3)).fun_sub
    (((((ci.const_mul 3).fun_mul cj).fun_mul cl)).fun_mul (inv_pow_deriv h m 5))
  simp only [Function.update_eq_self] at a
  have hs := len_pos h
  refine hd_congr a (fun t => ?_) ?_
  · unfold D_J; simp only [kron_eq]; ring
  · unfold DD_J; simp only [kronkron, kron_eq]
    have e1 : ∀ (x y u v : Fin 3), (if x = y then dlt u v else 0) = dlt x y * dlt u v := by
      intro x y u v; unfold dlt; split_ifs <;> simp
    simp only [e1]
    push_cast
    field_simp
    ring

theorem LapJ_deriv {r : Vec3} (h : r ≠ 0) (k i j : Fin 3) :
    HasDerivAt (fun t => Lap_J (Function.update r k t i) (Function.update r k t j) i j
      (len (Function.update r k t))) (DLap_J r (len r) k i j) (r k) := by
  have ci := coord_deriv r k i
  have cj := coord_deriv r k j
  have a := ((inv_pow_deriv h k 3).const_mul (2 * dlt i j)).fun_sub
    (((ci.const_mul 6).fun_mul cj).fun_mul (inv_pow_deriv h k 5))
  simp only [Function.update_eq_self] at a
  have hs := len_pos h
  refine hd_congr a (fun t => ?_) ?_
  · unfold Lap_J; simp only [kron_eq]; ring
  · unfold DLap_J; simp only [kron_eq]
    push_cast
    field_simp
    ring

theorem DLapJ_deriv {r : Vec3} (h : r ≠ 0) (l i j k : Fin 3) :
    HasDerivAt (fun t => DLap_J (Function.update r l t) (len (Function.update r l t)) i j k)
      (DLap_K r (len r) l i j k) (r l) := by
  have ci := coord_deriv r l i
  have cj := coord_deriv r l j
  have ck := coord_deriv r l k
  have a := (((inv_pow_deriv h l 5).const_mul (-6)).fun_mul
      (((ci.const_mul (dlt j k)).fun_add (ck.const_mul (dlt j i))).fun_add
        (cj.const_mul (dlt k i)))).fun_add
    (((((inv_pow_deriv h l 7).const_mul 30).fun_mul cj).fun_mul ck).fun_mul ci)
  simp only [Function.update_eq_self] at a
  have hs := len_pos h
  refine hd_congr a (fun t => ?_) ?_
  · unfold DLap_J; simp only [kron_eq]; ring
  · unfold DLap_K; simp only [kronkron, kron_eq]
    have e1 : ∀ (x y u v : Fin 3), (if x = y then dlt u v else 0) = dlt x y * dlt u v := by
      intro x y u v; unfold dlt; split_ifs <;> simp
    simp only [e1, dlt_comm j i, dlt_comm k i]
    push_cast
    field_simp
    ring

end SD
