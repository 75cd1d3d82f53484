import Verif.Lemmas.LatticeSum
import Mathlib.Analysis.SpecialFunctions.Gaussian.PoissonSummation

/-!
# Poisson's formula for Gaussians on the lattice of a sheared box
-/

set_option autoImplicit false

namespace SD.Ewald

open Spec Filter Topology Complex

/-- One dimension, with a phase. -/
theorem poisson_line {c d : ℝ} (hc : 0 < c) (hd : 0 < d) (x η : ℝ) :
    ∑' n : ℤ, cexp (-(c * (x + n * d) ^ 2) + I * η * (x + n * d))
      = (Real.sqrt (Real.pi / c) / d : ℝ) *
        ∑' m : ℤ, cexp (-((2 * Real.pi * m / d - η) ^ 2 / (4 * c)) + I * (2 * Real.pi * m / d) * x) := by
  have hp : (Real.pi : ℂ) ≠ 0 := by exact_mod_cast Real.pi_pos.ne'
  have hc' : (c : ℂ) ≠ 0 := by exact_mod_cast hc.ne'
  have hd' : (d : ℂ) ≠ 0 := by exact_mod_cast hd.ne'
  have ha0 : 0 < c * d ^ 2 / Real.pi := by have := Real.pi_pos; positivity
  have h := Complex.tsum_exp_neg_quadratic (a := ((c * d ^ 2 / Real.pi : ℝ) : ℂ)) (by rw [ofReal_re]; exact ha0)
    ((-2 * c * x * d + I * η * d) / (2 * Real.pi))
  have e1 : ∀ n : ℤ, cexp (-(c * (x + n * d) ^ 2) + I * η * (x + n * d)) = cexp (-(c * x ^ 2) + I * η * x)
      * cexp (-Real.pi * ((c * d ^ 2 / Real.pi : ℝ) : ℂ) * n ^ 2
        + 2 * Real.pi * ((-2 * c * x * d + I * η * d) / (2 * Real.pi)) * n) := by
    intro n
    rw [← Complex.exp_add]
    congr 1
    push_cast
    field_simp
    ring
  have e2 : ∀ m : ℤ, cexp (-((2 * Real.pi * m / d - η) ^ 2 / (4 * c)) + I * (2 * Real.pi * m / d) * x)
      = cexp (-(c * x ^ 2) + I * η * x) * cexp (-Real.pi / ((c * d ^ 2 / Real.pi : ℝ) : ℂ)
        * (m + I * ((-2 * c * x * d + I * η * d) / (2 * Real.pi))) ^ 2) := by
    intro m
    rw [← Complex.exp_add]
    congr 1
    push_cast
    have hI : I ^ 2 = -1 := I_sq
    field_simp
    ring_nf
    simp only [hI, show I ^ 3 = -I by rw [pow_succ, hI]; ring, show I ^ 4 = 1 by rw [show (4 : ℕ) = 2 * 2 by rfl, pow_mul, hI]; norm_num]
    ring
  have e3 : (1 : ℂ) / ((c * d ^ 2 / Real.pi : ℝ) : ℂ) ^ (1 / 2 : ℂ) = (Real.sqrt (Real.pi / c) / d : ℝ) := by
    rw [show (1 / 2 : ℂ) = ((1 / 2 : ℝ) : ℂ) by push_cast; rfl, ← ofReal_cpow ha0.le, ← Real.sqrt_eq_rpow]
    rw [show c * d ^ 2 / Real.pi = d ^ 2 / (Real.pi / c) by have := Real.pi_pos.ne'; field_simp]
    rw [Real.sqrt_div (by positivity), Real.sqrt_sq hd.le]
    push_cast
    rw [one_div_div]
  simp only [e1, e2, tsum_mul_left]
  rw [h, e3]
  ring

/-! ## Three axes -/

/-- The three axes, in some order. -/
structure Axes (a b c : Fin 3) : Prop where
  ab : a ≠ b
  ac : a ≠ c
  bc : b ≠ c

theorem exists_third {a b : Fin 3} (h : a ≠ b) : ∃ c, Axes a b c := by
  revert h; revert a b
  have : ∀ a b : Fin 3, a ≠ b → ∃ c, a ≠ b ∧ a ≠ c ∧ b ≠ c := by decide
  intro a b h
  obtain ⟨c, h1, h2, h3⟩ := this a b h
  exact ⟨c, h1, h2, h3⟩

theorem Axes.cases {a b c : Fin 3} (h : Axes a b c) (i : Fin 3) : i = a ∨ i = b ∨ i = c := by
  have : ∀ a b c : Fin 3, a ≠ b → a ≠ c → b ≠ c → ∀ i, i = a ∨ i = b ∨ i = c := by decide
  exact this a b c h.ab h.ac h.bc i

theorem Axes.sum {M : Type*} [AddCommMonoid M] {a b c : Fin 3} (h : Axes a b c) (f : Fin 3 → M) :
    ∑ i, f i = f a + f b + f c := by
  have e : (Finset.univ : Finset (Fin 3)) = {a, b, c} := by
    ext i; simpa using h.cases i
  rw [e, Finset.sum_insert (by simp [h.ab, h.ac]), Finset.sum_insert (by simp [h.bc]), Finset.sum_singleton, add_assoc]

theorem Axes.prod {a b c : Fin 3} (h : Axes a b c) (f : Fin 3 → ℝ) : f 0 * f 1 * f 2 = f a * f b * f c := by
  rw [← Fin.prod_univ_three]
  have e : (Finset.univ : Finset (Fin 3)) = {a, b, c} := by
    ext i; simpa using h.cases i
  rw [e, Finset.prod_insert (by simp [h.ab, h.ac]), Finset.prod_insert (by simp [h.bc]), Finset.prod_singleton, mul_assoc]

/-- Triples along the three axes. -/
def Axes.equiv {a b c : Fin 3} (h : Axes a b c) : ℤ × ℤ × ℤ ≃ (Fin 3 → ℤ) where
  toFun x := fun i => if i = a then x.1 else if i = b then x.2.1 else x.2.2
  invFun n := (n a, n b, n c)
  left_inv x := by simp [h.ab.symm, h.ac.symm, h.bc.symm]
  right_inv n := by
    funext i
    rcases h.cases i with e | e | e <;> subst e <;> simp [h.ab.symm, h.ac.symm, h.bc.symm]

section
variable {a b c : Fin 3} (h : Axes a b c) (x : ℤ × ℤ × ℤ)

theorem Axes.equiv_a : h.equiv x a = x.1 := by simp [Axes.equiv]
theorem Axes.equiv_b : h.equiv x b = x.2.1 := by simp [Axes.equiv, h.ab.symm]
theorem Axes.equiv_c : h.equiv x c = x.2.2 := by simp [Axes.equiv, h.ac.symm, h.bc.symm]

variable (d : Fin 3 → ℝ) (γ : ℝ) (n : Fin 3 → ℤ)
include h

theorem grid_sheared (i : Fin 3) : gridVec (shearedBox d a b γ) n i = n i * d i + if i = a then n b * (γ * d b) else 0 := by
  have e1 : ∀ k : Fin 3, (n k : ℝ) * (if i = k then d k else 0) = if i = k then n k * d k else 0 := fun k => by split_ifs <;> simp
  have e2 : ∀ k : Fin 3, (n k : ℝ) * (if k = b ∧ i = a then γ * d b else 0) = if k = b then (if i = a then n b * (γ * d b) else 0) else 0 := fun k => by
    by_cases hk : k = b <;> by_cases hi : i = a <;> simp [hk, hi]
  simp only [gridVec, vecMat3, shearedBox, mul_add, Finset.sum_add_distrib, e1, e2]
  simp

end

/-- The waves of the box are the lattice of this box. -/
noncomputable def dualBox (d : Fin 3 → ℝ) (a b : Fin 3) (γ : ℝ) : Mat3 := shearedBox (fun i => 2 * Real.pi / d i) b a (-γ)

theorem Axes.swap {a b c : Fin 3} (h : Axes a b c) : Axes b a c := ⟨h.ab.symm, h.bc, h.ac⟩

theorem spans_sheared {a b : Fin 3} (h : a ≠ b) {d : Fin 3 → ℝ} (hd : ∀ i, d i ≠ 0) (γ : ℝ) : Spans (shearedBox d a b γ) := by
  have e : ∀ a b : Fin 3, a ≠ b → (shearedBox d a b γ 0 0 * (shearedBox d a b γ 1 1 * shearedBox d a b γ 2 2
      - shearedBox d a b γ 1 2 * shearedBox d a b γ 2 1) - shearedBox d a b γ 0 1 * (shearedBox d a b γ 1 0 * shearedBox d a b γ 2 2
      - shearedBox d a b γ 1 2 * shearedBox d a b γ 2 0)
    + shearedBox d a b γ 0 2 * (shearedBox d a b γ 1 0 * shearedBox d a b γ 2 1 - shearedBox d a b γ 1 1 * shearedBox d a b γ 2 0))
      = d 0 * d 1 * d 2 := by
    intro a b hab
    fin_cases a <;> fin_cases b <;> first | exact absurd rfl hab | (simp [shearedBox]; try ring)
  unfold Spans
  rw [e a b h]
  exact mul_ne_zero (mul_ne_zero (hd 0) (hd 1)) (hd 2)

theorem sq_len (y : Vec3) : len y ^ 2 = ∑ i, y i ^ 2 := by
  unfold len
  exact Real.sq_sqrt (Finset.sum_nonneg fun i _ => sq_nonneg _)

theorem line_summable {c d : ℝ} (hc : 0 < c) (hd : d ≠ 0) (x : ℝ) : Summable fun n : ℤ => Real.exp (-(c * (x + n * d) ^ 2)) := by
  have h := ((gauss_quick (β := Unit) hc).fast (spans_sheared (a := 0) (b := 1) (by decide) (d := fun _ => d) (fun _ => hd) 0) ()
    (fun i => if i = 0 then x else 0)).summable
  have inj : Function.Injective fun z : ℤ => fun i : Fin 3 => if i = 0 then z else 0 := fun z z' e => by
    simpa using congrFun e 0
  refine (h.comp_injective inj).congr fun n => ?_
  have hA : Axes 0 1 2 := ⟨by decide, by decide, by decide⟩
  simp only [Function.comp_def, sq_len, grid_sheared hA, hA.sum]
  simp

/-- Shorthand: a Gaussian in one variable. -/
noncomputable def bell (c x : ℝ) : ℂ := cexp (-(c * x ^ 2))

theorem norm_bell (c x : ℝ) : ‖bell c x‖ = Real.exp (-(c * x ^ 2)) := by
  unfold bell
  rw [Complex.norm_exp]
  congr 1
  norm_cast

theorem norm_phase (x : ℝ) : ‖cexp (I * x)‖ = 1 := by
  rw [mul_comm, Complex.norm_exp_ofReal_mul_I]

theorem poisson_bell {c d : ℝ} (hc : 0 < c) (hd : 0 < d) (x η : ℝ) :
    ∑' n : ℤ, bell c (x + n * d) * cexp (I * (η * (x + n * d) : ℝ))
      = (Real.sqrt (Real.pi / c) / d : ℝ) *
        ∑' m : ℤ, bell (1 / (4 * c)) (2 * Real.pi * m / d - η) * cexp (I * ((2 * Real.pi * m / d) * x : ℝ)) := by
  have h := poisson_line hc hd x η
  convert h using 3
  · rename_i n
    unfold bell
    rw [← Complex.exp_add]
    push_cast
    congr 1
    ring
  · congr 1
    funext m
    unfold bell
    rw [← Complex.exp_add]
    push_cast
    congr 1
    ring

/-- Two axes, sheared. -/
theorem poisson_plane {c da db : ℝ} (hc : 0 < c) (ha : 0 < da) (hb : 0 < db) (x y γ : ℝ) :
    ∑' n : ℤ, bell c (y + n * db) * ∑' m : ℤ, bell c (x + γ * (n * db) + m * da)
      = (Real.sqrt (Real.pi / c) / da : ℝ) * ((Real.sqrt (Real.pi / c) / db : ℝ) *
        ∑' m : ℤ, ∑' n : ℤ, bell (1 / (4 * c)) (2 * Real.pi * m / da) * bell (1 / (4 * c)) (2 * Real.pi * n / db - γ * (2 * Real.pi * m / da))
          * cexp (I * ((2 * Real.pi * m / da) * x + (2 * Real.pi * n / db - γ * (2 * Real.pi * m / da)) * y : ℝ))) := by
  have e1 : ∀ n : ℤ, ∑' m : ℤ, bell c (x + γ * (n * db) + m * da) = (Real.sqrt (Real.pi / c) / da : ℝ) *
      ∑' m : ℤ, bell (1 / (4 * c)) (2 * Real.pi * m / da) * cexp (I * ((2 * Real.pi * m / da) * (x + γ * (n * db)) : ℝ)) := by
    intro n
    have := poisson_bell hc ha (x + γ * (n * db)) 0
    simpa using this
  have hs : Summable (Function.uncurry fun (n m : ℤ) => bell c (y + n * db) *
      (bell (1 / (4 * c)) (2 * Real.pi * m / da) * cexp (I * ((2 * Real.pi * m / da) * (x + γ * (n * db)) : ℝ)))) := by
    have h1 := line_summable hc hb.ne' y
    have h2 := line_summable (c := 1 / (4 * c)) (d := 2 * Real.pi / da) (by positivity) (by have := Real.pi_pos; positivity) 0
    have h3 := h1.mul_of_nonneg h2 (fun _ => (Real.exp_pos _).le) (fun _ => (Real.exp_pos _).le)
    refine Summable.of_norm (h3.congr fun p => ?_)
    simp only [Function.uncurry, norm_mul, norm_bell, norm_phase, mul_one, zero_add]
    congr 5
    ring
  calc _ = (Real.sqrt (Real.pi / c) / da : ℝ) * ∑' n : ℤ, ∑' m : ℤ, bell c (y + n * db) *
      (bell (1 / (4 * c)) (2 * Real.pi * m / da) * cexp (I * ((2 * Real.pi * m / da) * (x + γ * (n * db)) : ℝ))) := by
        rw [← tsum_mul_left]
        refine tsum_congr fun n => ?_
        rw [e1, tsum_mul_left]
        ring
    _ = (Real.sqrt (Real.pi / c) / da : ℝ) * ∑' m : ℤ, ∑' n : ℤ, bell c (y + n * db) *
      (bell (1 / (4 * c)) (2 * Real.pi * m / da) * cexp (I * ((2 * Real.pi * m / da) * (x + γ * (n * db)) : ℝ))) := by
        rw [hs.tsum_comm]
    _ = _ := by
        congr 1
        rw [← tsum_mul_left]
        refine tsum_congr fun m => ?_
        have h := poisson_bell hc hb y (γ * (2 * Real.pi * m / da))
        have e2 : ∀ n : ℤ, bell c (y + n * db) * (bell (1 / (4 * c)) (2 * Real.pi * m / da)
            * cexp (I * ((2 * Real.pi * m / da) * (x + γ * (n * db)) : ℝ)))
            = bell (1 / (4 * c)) (2 * Real.pi * m / da) * cexp (I * ((2 * Real.pi * m / da) * (x - γ * y) : ℝ)) *
              (bell c (y + n * db) * cexp (I * (γ * (2 * Real.pi * m / da) * (y + n * db) : ℝ))) := by
          intro n
          rw [show cexp (I * ((2 * Real.pi * m / da) * (x + γ * (n * db)) : ℝ))
            = cexp (I * ((2 * Real.pi * m / da) * (x - γ * y) : ℝ)) * cexp (I * (γ * (2 * Real.pi * m / da) * (y + n * db) : ℝ)) by
              rw [← Complex.exp_add]; congr 1; push_cast; ring]
          ring
        simp only [e2]
        rw [tsum_mul_left, h, ← tsum_mul_left, ← tsum_mul_left, ← tsum_mul_left]
        refine tsum_congr fun n => ?_
        rw [show cexp (I * ((2 * Real.pi * m / da) * x + (2 * Real.pi * n / db - γ * (2 * Real.pi * m / da)) * y : ℝ))
          = cexp (I * ((2 * Real.pi * m / da) * (x - γ * y) : ℝ)) * cexp (I * ((2 * Real.pi * n / db) * y : ℝ)) by
            rw [← Complex.exp_add]; congr 1; push_cast; ring]
        ring

section
variable {a b : Fin 3} (hab : a ≠ b) {d : Fin 3 → ℝ} (hd : ∀ i, 0 < d i) (γ : ℝ)
include hab hd

theorem spans_box : Spans (shearedBox d a b γ) := spans_sheared hab (fun i => (hd i).ne') γ

theorem dual_pos (i : Fin 3) : 0 < 2 * Real.pi / d i := div_pos (by have := Real.pi_pos; positivity) (hd i)

theorem spans_dualBox : Spans (dualBox d a b γ) := spans_sheared hab.symm (fun i => (dual_pos hab hd i).ne') (-γ)

/-- The sum of a Gaussian over the lattice, as a sum over waves. -/
theorem poisson_box_complex {c : ℝ} (hc : 0 < c) (r : Vec3) :
    ∑' n : Fin 3 → ℤ, ((Real.exp (-(c * len (fun m => r m + gridVec (shearedBox d a b γ) n m) ^ 2)) : ℝ) : ℂ)
      = (Real.sqrt (Real.pi / c) ^ 3 / (d 0 * d 1 * d 2) : ℝ) * ∑' m : Fin 3 → ℤ,
        ((Real.exp (-(1 / (4 * c) * len (gridVec (dualBox d a b γ) m) ^ 2)) : ℝ) : ℂ) * cexp (I * (inner3 (gridVec (dualBox d a b γ) m) r : ℝ)) := by
  obtain ⟨z, hA⟩ := exists_third hab
  have hB := spans_box hab hd γ
  have hW := spans_dualBox hab hd γ
  have hc4 : 0 < 1 / (4 * c) := by positivity
  have h1 : Axes z b a := ⟨hA.bc.symm, hA.ac.symm, hA.ab.symm⟩
  have h2 : Axes z a b := ⟨hA.ac.symm, hA.bc.symm, hA.ab⟩
  -- the terms
  have eL : ∀ x : ℤ × ℤ × ℤ, ((Real.exp (-(c * len (fun m => r m + gridVec (shearedBox d a b γ) (h1.equiv x) m) ^ 2)) : ℝ) : ℂ)
      = bell c (r z + x.1 * d z) * (bell c (r b + x.2.1 * d b) * bell c (r a + γ * (x.2.1 * d b) + x.2.2 * d a)) := by
    intro x
    rw [sq_len, hA.sum]
    simp only [grid_sheared hA, h1.equiv_a, h1.equiv_b, h1.equiv_c, if_true, if_neg hA.ab.symm, if_neg hA.ac.symm, bell]
    rw [← Complex.exp_add, ← Complex.exp_add]
    push_cast
    congr 1
    ring
  have eR : ∀ x : ℤ × ℤ × ℤ, ((Real.exp (-(1 / (4 * c) * len (gridVec (dualBox d a b γ) (h2.equiv x)) ^ 2)) : ℝ) : ℂ)
        * cexp (I * (inner3 (gridVec (dualBox d a b γ) (h2.equiv x)) r : ℝ))
      = bell (1 / (4 * c)) (2 * Real.pi * x.1 / d z) * cexp (I * ((2 * Real.pi * x.1 / d z) * r z : ℝ)) *
        (bell (1 / (4 * c)) (2 * Real.pi * x.2.1 / d a)
          * bell (1 / (4 * c)) (2 * Real.pi * x.2.2 / d b - γ * (2 * Real.pi * x.2.1 / d a))
          * cexp (I * ((2 * Real.pi * x.2.1 / d a) * r a + (2 * Real.pi * x.2.2 / d b - γ * (2 * Real.pi * x.2.1 / d a)) * r b : ℝ))) := by
    intro x
    unfold inner3 dualBox
    rw [sq_len, hA.sum, hA.sum]
    simp only [grid_sheared hA.swap, h2.equiv_a, h2.equiv_b, h2.equiv_c, if_true, if_neg hA.ab, if_neg hA.bc.symm, bell]
    rw [Complex.ofReal_exp]
    simp only [← Complex.exp_add]
    push_cast
    congr 1
    ring
  have sL : Summable fun x : ℤ × ℤ × ℤ => bell c (r z + x.1 * d z) * (bell c (r b + x.2.1 * d b) * bell c (r a + γ * (x.2.1 * d b) + x.2.2 * d a)) := by
    have := ((gauss_quick (β := Unit) hc).fast hB () r).summable
    have h3 := (Complex.hasSum_ofReal.mpr this.hasSum).summable
    exact (h1.equiv.summable_iff.mpr h3).congr eL
  have sR : Summable fun x : ℤ × ℤ × ℤ => bell (1 / (4 * c)) (2 * Real.pi * x.1 / d z) * cexp (I * ((2 * Real.pi * x.1 / d z) * r z : ℝ)) *
        (bell (1 / (4 * c)) (2 * Real.pi * x.2.1 / d a)
          * bell (1 / (4 * c)) (2 * Real.pi * x.2.2 / d b - γ * (2 * Real.pi * x.2.1 / d a))
          * cexp (I * ((2 * Real.pi * x.2.1 / d a) * r a + (2 * Real.pi * x.2.2 / d b - γ * (2 * Real.pi * x.2.1 / d a)) * r b : ℝ))) := by
    have := ((gauss_quick (β := Unit) hc4).fast hW () 0).summable
    have h3 : Summable fun m : Fin 3 → ℤ => ((Real.exp (-(1 / (4 * c) * len (gridVec (dualBox d a b γ) m) ^ 2)) : ℝ) : ℂ)
        * cexp (I * (inner3 (gridVec (dualBox d a b γ) m) r : ℝ)) := by
      refine Summable.of_norm (this.congr fun m => ?_)
      rw [norm_mul, norm_phase, mul_one, Complex.norm_real, Real.norm_eq_abs, abs_of_pos (Real.exp_pos _)]
      simp
    exact (h2.equiv.summable_iff.mpr h3).congr eR
  have lhs : ∑' n : Fin 3 → ℤ, ((Real.exp (-(c * len (fun m => r m + gridVec (shearedBox d a b γ) n m) ^ 2)) : ℝ) : ℂ)
      = (∑' n : ℤ, bell c (r z + n * d z)) * ∑' n : ℤ, bell c (r b + n * d b) * ∑' m : ℤ, bell c (r a + γ * (n * d b) + m * d a) := by
    rw [← h1.equiv.tsum_eq]
    simp only [eL]
    rw [sL.tsum_prod, ← tsum_mul_right]
    refine tsum_congr fun n => ?_
    rw [(sL.prod_factor n).tsum_prod, ← tsum_mul_left]
    refine tsum_congr fun m => ?_
    simp only [tsum_mul_left]
  have rhs : ∑' m : Fin 3 → ℤ, ((Real.exp (-(1 / (4 * c) * len (gridVec (dualBox d a b γ) m) ^ 2)) : ℝ) : ℂ)
        * cexp (I * (inner3 (gridVec (dualBox d a b γ) m) r : ℝ))
      = (∑' n : ℤ, bell (1 / (4 * c)) (2 * Real.pi * n / d z) * cexp (I * ((2 * Real.pi * n / d z) * r z : ℝ))) *
        ∑' m : ℤ, ∑' n : ℤ, bell (1 / (4 * c)) (2 * Real.pi * m / d a) * bell (1 / (4 * c)) (2 * Real.pi * n / d b - γ * (2 * Real.pi * m / d a))
          * cexp (I * ((2 * Real.pi * m / d a) * r a + (2 * Real.pi * n / d b - γ * (2 * Real.pi * m / d a)) * r b : ℝ)) := by
    rw [← h2.equiv.tsum_eq]
    simp only [eR]
    rw [sR.tsum_prod, ← tsum_mul_right]
    refine tsum_congr fun n => ?_
    rw [(sR.prod_factor n).tsum_prod, ← tsum_mul_left]
    refine tsum_congr fun m => ?_
    simp only [tsum_mul_left]
  rw [lhs, rhs, poisson_plane hc (hd a) (hd b), hA.prod]
  have h3 := poisson_bell hc (hd z) (r z) 0
  simp only [zero_mul, Complex.ofReal_zero, mul_zero, Complex.exp_zero, mul_one, sub_zero] at h3
  rw [h3]
  generalize (∑' n : ℤ, bell (1 / (4 * c)) (2 * Real.pi * n / d z) * cexp (I * ((2 * Real.pi * n / d z) * r z : ℝ))) = S
  generalize (∑' m : ℤ, ∑' n : ℤ, bell (1 / (4 * c)) (2 * Real.pi * m / d a) * bell (1 / (4 * c)) (2 * Real.pi * n / d b - γ * (2 * Real.pi * m / d a))
          * cexp (I * ((2 * Real.pi * m / d a) * r a + (2 * Real.pi * n / d b - γ * (2 * Real.pi * m / d a)) * r b : ℝ))) = T
  push_cast
  have nz : (d z : ℂ) ≠ 0 := by exact_mod_cast (hd z).ne'
  have na : (d a : ℂ) ≠ 0 := by exact_mod_cast (hd a).ne'
  have nb : (d b : ℂ) ≠ 0 := by exact_mod_cast (hd b).ne'
  field_simp

theorem poisson_box {c : ℝ} (hc : 0 < c) (r : Vec3) :
    ∑' n : Fin 3 → ℤ, Real.exp (-(c * len (fun m => r m + gridVec (shearedBox d a b γ) n m) ^ 2))
      = Real.sqrt (Real.pi / c) ^ 3 / (d 0 * d 1 * d 2) * ∑' m : Fin 3 → ℤ,
        Real.cos (inner3 (gridVec (dualBox d a b γ) m) r) * Real.exp (-(1 / (4 * c) * len (gridVec (dualBox d a b γ) m) ^ 2)) := by
  have h := congrArg Complex.re (poisson_box_complex hab hd γ hc r)
  have hW := spans_dualBox hab hd γ
  have hc4 : 0 < 1 / (4 * c) := by positivity
  have h3 : Summable fun m : Fin 3 → ℤ => ((Real.exp (-(1 / (4 * c) * len (gridVec (dualBox d a b γ) m) ^ 2)) : ℝ) : ℂ)
        * cexp (I * (inner3 (gridVec (dualBox d a b γ) m) r : ℝ)) := by
    have := ((gauss_quick (β := Unit) hc4).fast hW () 0).summable
    refine Summable.of_norm (this.congr fun m => ?_)
    rw [norm_mul, norm_phase, mul_one, Complex.norm_real, Real.norm_eq_abs, abs_of_pos (Real.exp_pos _)]
    simp
  rw [← Complex.ofReal_tsum, Complex.ofReal_re, Complex.re_ofReal_mul, Complex.re_tsum h3] at h
  rw [h]
  congr 1
  refine tsum_congr fun m => ?_
  rw [Complex.re_ofReal_mul, mul_comm I, Complex.exp_ofReal_mul_I_re, mul_comm]

end

end SD.Ewald
