import Mathlib.RingTheory.PowerSeries.Basic
import Mathlib.RingTheory.PowerSeries.Substitution
import Mathlib.Tactic.FieldSimp
import Mathlib.Tactic.LinearCombination
import Mathlib.Algebra.BigOperators.Intervals
import Mathlib.Data.Int.Interval
import Mathlib.Data.Real.Basic

/-!
# Reciprocity of the two-sphere reflection recurrences

The recurrences for the coefficients of the two-sphere problem are a linear system between the coefficients of
sphere 1 and sphere 2. With suitable weights its matrix is symmetric, which gives the reciprocal theorem.
-/

set_option autoImplicit false

namespace SD.Reflect

open Finset

/-- Green's identity for two approximate solutions of a symmetric system. -/
theorem green {ι S : Type*} [CommRing S] (I : Finset ι) (x : S) (D D' : ι → S) (K : ι → ι → S)
    (a a' b b' s s' r r' : ι → S)
    (ha : ∀ i ∈ I, x ∣ D i * a i - s i - ∑ j ∈ I, K i j * a' j)
    (ha' : ∀ j ∈ I, x ∣ D' j * a' j - s' j - ∑ i ∈ I, K i j * a i)
    (hb : ∀ i ∈ I, x ∣ D i * b i - r i - ∑ j ∈ I, K i j * b' j)
    (hb' : ∀ j ∈ I, x ∣ D' j * b' j - r' j - ∑ i ∈ I, K i j * b i) :
    x ∣ (∑ i ∈ I, s i * b i) + (∑ j ∈ I, s' j * b' j) - (∑ i ∈ I, r i * a i) - ∑ j ∈ I, r' j * a' j := by
  have h1 : x ∣ ∑ i ∈ I, b i * (D i * a i - s i - ∑ j ∈ I, K i j * a' j) :=
    dvd_sum fun i hi => Dvd.dvd.mul_left (ha i hi) _
  have h2 : x ∣ ∑ j ∈ I, b' j * (D' j * a' j - s' j - ∑ i ∈ I, K i j * a i) :=
    dvd_sum fun i hi => Dvd.dvd.mul_left (ha' i hi) _
  have h3 : x ∣ ∑ i ∈ I, a i * (D i * b i - r i - ∑ j ∈ I, K i j * b' j) :=
    dvd_sum fun i hi => Dvd.dvd.mul_left (hb i hi) _
  have h4 : x ∣ ∑ j ∈ I, a' j * (D' j * b' j - r' j - ∑ i ∈ I, K i j * b i) :=
    dvd_sum fun i hi => Dvd.dvd.mul_left (hb' i hi) _
  have key : (∑ i ∈ I, s i * b i) + (∑ j ∈ I, s' j * b' j) - (∑ i ∈ I, r i * a i) - ∑ j ∈ I, r' j * a' j
      = -(∑ i ∈ I, b i * (D i * a i - s i - ∑ j ∈ I, K i j * a' j))
        - (∑ j ∈ I, b' j * (D' j * a' j - s' j - ∑ i ∈ I, K i j * a i))
        + (∑ i ∈ I, a i * (D i * b i - r i - ∑ j ∈ I, K i j * b' j))
        + ∑ j ∈ I, a' j * (D' j * b' j - r' j - ∑ i ∈ I, K i j * b i) := by
    have e1 : (∑ i ∈ I, b i * ∑ j ∈ I, K i j * a' j) = ∑ j ∈ I, a' j * ∑ i ∈ I, K i j * b i := by
      simp only [mul_sum]
      rw [sum_comm]
      exact sum_congr rfl fun _ _ => sum_congr rfl fun _ _ => by ring
    have e2 : (∑ j ∈ I, b' j * ∑ i ∈ I, K i j * a i) = ∑ i ∈ I, a i * ∑ j ∈ I, K i j * b' j := by
      simp only [mul_sum]
      rw [sum_comm]
      exact sum_congr rfl fun _ _ => sum_congr rfl fun _ _ => by ring
    have e3 : (∑ i ∈ I, b i * (D i * a i)) = ∑ i ∈ I, a i * (D i * b i) :=
      sum_congr rfl fun _ _ => by ring
    have e4 : (∑ i ∈ I, b' i * (D' i * a' i)) = ∑ i ∈ I, a' i * (D' i * b' i) :=
      sum_congr rfl fun _ _ => by ring
    have c : ∀ u v : ι → S, (∑ i ∈ I, u i * v i) = ∑ i ∈ I, v i * u i :=
      fun u v => sum_congr rfl fun _ _ => mul_comm _ _
    simp only [mul_sub, sum_sub_distrib]
    rw [e1, e2, e3, e4, c s b, c s' b', c r a, c r' a']
    ring
  rw [key]
  exact dvd_add (dvd_add (dvd_sub (dvd_neg.mpr h1) h2) h3) h4

/-- The terms of total degree `k` of `∑ f p q x^p y^q`. -/
noncomputable def lev (f : ℤ → ℤ → ℝ) (x y : ℝ) (k : ℤ) : ℝ :=
  ∑ q ∈ Icc (0 : ℤ) k, f (k - q) q * (x ^ (k - q) * y ^ q)

theorem lev_neg (f : ℤ → ℤ → ℝ) (x y : ℝ) {k : ℤ} (hk : k < 0) : lev f x y k = 0 := by
  rw [lev, Icc_eq_empty (by omega), sum_empty]

theorem lev_shift {f : ℤ → ℤ → ℝ} (hf : ∀ p q, p < 0 ∨ q < 0 → f p q = 0) {x y : ℝ} (hx : x ≠ 0) (hy : y ≠ 0)
    {a b : ℤ} (ha : 0 ≤ a) (hb : 0 ≤ b) (k : ℤ) :
    ∑ q ∈ Icc (0 : ℤ) k, f (q - b) (k - q - a) * (x ^ (k - q) * y ^ q)
      = x ^ a * y ^ b * lev f y x (k - a - b) := by
  have h1 : ∑ q ∈ Icc (0 : ℤ) k, f (q - b) (k - q - a) * (x ^ (k - q) * y ^ q)
      = ∑ q ∈ Icc b (k - a), f (q - b) (k - q - a) * (x ^ (k - q) * y ^ q) := by
    symm
    apply sum_subset
    · intro q hq
      rw [mem_Icc] at hq ⊢
      omega
    · intro q hq hq'
      rw [mem_Icc] at hq hq'
      rw [hf _ _ (by omega), zero_mul]
  rw [h1, lev, mul_sum]
  refine sum_nbij' (fun q => k - a - q) (fun q => k - a - q) ?_ ?_ ?_ ?_ ?_
  · intro q hq; rw [mem_Icc] at hq ⊢; omega
  · intro q hq; rw [mem_Icc] at hq ⊢; omega
  · intro q hq; ring
  · intro q hq; ring
  · intro q hq
    have e1 : k - a - b - (k - a - q) = q - b := by ring
    have e2 : k - a - q = k - q - a := by ring
    have e3 : x ^ (k - q) = x ^ a * x ^ (k - q - a) := by rw [← zpow_add₀ hx]; congr 1; ring
    have e4 : y ^ q = y ^ b * y ^ (q - b) := by rw [← zpow_add₀ hy]; congr 1; ring
    rw [e1, e2, e3, e4]
    ring

/-- The common shape of the recurrences of `functions_nearfield.py`. `W` is `V - P`. -/
structure Family (lo : ℕ) (P Q W : ℕ → ℤ → ℤ → ℝ) (A B G H H' E J : ℕ → ℕ → ℝ) (cP cQ : ℕ → ℝ) : Prop where
  zP : ∀ n, ∀ p q : ℤ, p < 0 ∨ q < 0 → P n p q = 0
  zQ : ∀ n, ∀ p q : ℤ, p < 0 ∨ q < 0 → Q n p q = 0
  zW : ∀ n, ∀ p q : ℤ, p < 0 ∨ q < 0 → W n p q = 0
  recP : ∀ (N : ℕ) (n : ℕ) (p q : ℤ), 1 ≤ n → q ≤ N → P n p q = (if p = 0 ∧ q = 0 then cP n else 0)
    + ∑ s ∈ Icc lo N, (A n s * P s (q - s) (p - n + 1) + B n s * P s (q - s) (p - n - 1)
      + G n s * (P s (q - s - 2) (p - n + 1) + W s (q - s - 2) (p - n + 1))
      + H n s * Q s (q - s - 1) (p - n + 1))
  recQ : ∀ (N : ℕ) (n : ℕ) (p q : ℤ), 1 ≤ n → q ≤ N → Q n p q = (if p = 0 ∧ q = 0 then cQ n else 0)
    + ∑ s ∈ Icc lo N, (E n s * Q s (q - s - 1) (p - n) + H' n s * P s (q - s) (p - n))
  recW : ∀ (N : ℕ) (n : ℕ) (p q : ℤ), 1 ≤ n → q ≤ N → W n p q
    = ∑ s ∈ Icc lo N, J n s * P s (q - s) (p - n - 1)

/-- Weights that make the system symmetric. -/
structure Weights (lo : ℕ) (A B G H H' E J : ℕ → ℕ → ℝ) (wP wQ wW : ℕ → ℝ) : Prop where
  A : ∀ n s, lo ≤ n → lo ≤ s → wP n * A n s = wP s * A s n
  BG : ∀ n s, lo ≤ n → lo ≤ s → wP n * B n s = wP s * G s n
  GJ : ∀ n s, lo ≤ n → lo ≤ s → wP n * G n s = wW s * J s n
  H : ∀ n s, lo ≤ n → lo ≤ s → wP n * H n s = wQ s * H' s n
  E : ∀ n s, lo ≤ n → lo ≤ s → wQ n * E n s = wQ s * E s n

section

variable {lo : ℕ} {P Q W : ℕ → ℤ → ℤ → ℝ} {A B G H H' E J : ℕ → ℕ → ℝ} {cP cQ : ℕ → ℝ}

theorem lev_source (c x y : ℝ) (k : ℕ) :
    ∑ q ∈ Icc (0 : ℤ) k, (if (k : ℤ) - q = 0 ∧ q = 0 then c else 0) * (x ^ ((k : ℤ) - q) * y ^ q)
      = if k = 0 then c else 0 := by
  by_cases hk : k = 0
  · subst hk; simp
  · rw [if_neg hk]
    refine sum_eq_zero fun q _ => ?_
    rw [if_neg (by omega), zero_mul]

theorem Family.levP (F : Family lo P Q W A B G H H' E J cP cQ) {x y : ℝ} (hx : x ≠ 0) (hy : y ≠ 0) {N n k : ℕ}
    (hn : 1 ≤ n) (hk : k ≤ N) :
    x * lev (P n) x y k = (if k = 0 then x * cP n else 0) + ∑ s ∈ Icc lo N,
      (A n s * (x ^ n * y ^ s) * lev (P s) y x ((k : ℤ) - (n + s - 1))
      + B n s * (x ^ (n + 2) * y ^ s) * lev (P s) y x ((k : ℤ) - (n + s + 1))
      + G n s * (x ^ n * y ^ (s + 2)) * (lev (P s) y x ((k : ℤ) - (n + s + 1))
        + lev (W s) y x ((k : ℤ) - (n + s + 1)))
      + H n s * (x ^ n * y ^ (s + 1)) * lev (Q s) y x ((k : ℤ) - (n + s))) := by
  have h1 : lev (P n) x y k = ∑ q ∈ Icc (0 : ℤ) k, ((if (k : ℤ) - q = 0 ∧ q = 0 then cP n else 0)
      * (x ^ ((k : ℤ) - q) * y ^ q) + ∑ s ∈ Icc lo N,
        (A n s * (P s (q - s) (k - q - (n - 1)) * (x ^ ((k : ℤ) - q) * y ^ q))
        + B n s * (P s (q - s) (k - q - (n + 1)) * (x ^ ((k : ℤ) - q) * y ^ q))
        + G n s * (P s (q - (s + 2)) (k - q - (n - 1)) * (x ^ ((k : ℤ) - q) * y ^ q)
          + W s (q - (s + 2)) (k - q - (n - 1)) * (x ^ ((k : ℤ) - q) * y ^ q))
        + H n s * (Q s (q - (s + 1)) (k - q - (n - 1)) * (x ^ ((k : ℤ) - q) * y ^ q)))) := by
    refine sum_congr rfl fun q hq => ?_
    rw [mem_Icc] at hq
    rw [F.recP N n _ q hn (by omega), add_mul, sum_mul]
    congr 1
    refine sum_congr rfl fun s _ => ?_
    rw [show (k : ℤ) - q - (n - 1) = k - q - n + 1 by ring, show (k : ℤ) - q - (n + 1) = k - q - n - 1 by ring,
      show q - ((s : ℤ) + 2) = q - s - 2 by ring, show q - ((s : ℤ) + 1) = q - s - 1 by ring]
    ring
  rw [h1, sum_add_distrib, lev_source, sum_comm, mul_add, mul_sum]
  congr 1
  · split_ifs <;> simp
  · refine sum_congr rfl fun s _ => ?_
    simp only [sum_add_distrib, ← mul_sum]
    rw [lev_shift (F.zP s) hx hy (by omega) (by omega), lev_shift (F.zP s) hx hy (by omega) (by omega),
      lev_shift (F.zP s) hx hy (by omega) (by omega), lev_shift (F.zW s) hx hy (by omega) (by omega),
      lev_shift (F.zQ s) hx hy (by omega) (by omega)]
    rw [show (k : ℤ) - (n - 1) - s = k - (n + s - 1) by ring,
      show (k : ℤ) - (n + 1) - s = k - (n + s + 1) by ring,
      show (k : ℤ) - (n - 1) - (s + 2) = k - (n + s + 1) by ring,
      show (k : ℤ) - (n - 1) - (s + 1) = k - (n + s) by ring]
    have e1 : x ^ n = x * x ^ ((n : ℤ) - 1) := by
      rw [← zpow_natCast, ← zpow_one_add₀ hx]; congr 1; ring
    have e2 : x ^ (n + 2) = x * x ^ ((n : ℤ) + 1) := by
      rw [← zpow_natCast, ← zpow_one_add₀ hx]; congr 1; push_cast; ring
    have e3 : y ^ (s + 2) = y ^ ((s : ℤ) + 2) := by rw [← zpow_natCast]; norm_cast
    have e4 : y ^ (s + 1) = y ^ ((s : ℤ) + 1) := by rw [← zpow_natCast]; norm_cast
    rw [e1, e2, e3, e4, zpow_natCast]
    ring

theorem Family.levQ (F : Family lo P Q W A B G H H' E J cP cQ) {x y : ℝ} (hx : x ≠ 0) (hy : y ≠ 0) {N n k : ℕ}
    (hn : 1 ≤ n) (hk : k ≤ N) :
    x * lev (Q n) x y k = (if k = 0 then x * cQ n else 0) + ∑ s ∈ Icc lo N,
      (E n s * (x ^ (n + 1) * y ^ (s + 1)) * lev (Q s) y x ((k : ℤ) - (n + s + 1))
      + H' n s * (x ^ (n + 1) * y ^ s) * lev (P s) y x ((k : ℤ) - (n + s))) := by
  have h1 : lev (Q n) x y k = ∑ q ∈ Icc (0 : ℤ) k, ((if (k : ℤ) - q = 0 ∧ q = 0 then cQ n else 0)
      * (x ^ ((k : ℤ) - q) * y ^ q) + ∑ s ∈ Icc lo N,
        (E n s * (Q s (q - (s + 1)) (k - q - n) * (x ^ ((k : ℤ) - q) * y ^ q))
        + H' n s * (P s (q - s) (k - q - n) * (x ^ ((k : ℤ) - q) * y ^ q)))) := by
    refine sum_congr rfl fun q hq => ?_
    rw [mem_Icc] at hq
    rw [F.recQ N n _ q hn (by omega), add_mul, sum_mul]
    congr 1
    refine sum_congr rfl fun s _ => ?_
    rw [show q - ((s : ℤ) + 1) = q - s - 1 by ring]
    ring
  rw [h1, sum_add_distrib, lev_source, sum_comm, mul_add, mul_sum]
  congr 1
  · split_ifs <;> simp
  · refine sum_congr rfl fun s _ => ?_
    simp only [sum_add_distrib, ← mul_sum]
    rw [lev_shift (F.zP s) hx hy (by omega) (by omega), lev_shift (F.zQ s) hx hy (by omega) (by omega)]
    rw [show (k : ℤ) - n - (s + 1) = k - (n + s + 1) by ring,
      show (k : ℤ) - n - s = k - (n + s) by ring]
    have e2 : x ^ (n + 1) = x * x ^ (n : ℤ) := by
      rw [← zpow_natCast, ← zpow_one_add₀ hx]; congr 1; push_cast; ring
    have e4 : y ^ (s + 1) = y ^ ((s : ℤ) + 1) := by rw [← zpow_natCast]; norm_cast
    rw [e2, e4, zpow_natCast, zpow_natCast]
    ring

theorem Family.levW (F : Family lo P Q W A B G H H' E J cP cQ) {x y : ℝ} (hx : x ≠ 0) (hy : y ≠ 0) {N n k : ℕ}
    (hn : 1 ≤ n) (hk : k ≤ N) :
    x * lev (W n) x y k = ∑ s ∈ Icc lo N,
      J n s * (x ^ (n + 2) * y ^ s) * lev (P s) y x ((k : ℤ) - (n + s + 1)) := by
  have h1 : lev (W n) x y k = ∑ q ∈ Icc (0 : ℤ) k, ∑ s ∈ Icc lo N,
        J n s * (P s (q - s) (k - q - (n + 1)) * (x ^ ((k : ℤ) - q) * y ^ q)) := by
    refine sum_congr rfl fun q hq => ?_
    rw [mem_Icc] at hq
    rw [F.recW N n _ q hn (by omega), sum_mul]
    refine sum_congr rfl fun s _ => ?_
    rw [show (k : ℤ) - q - (n + 1) = k - q - n - 1 by ring]
    ring
  rw [h1, sum_comm, mul_sum]
  refine sum_congr rfl fun s _ => ?_
  simp only [← mul_sum]
  rw [lev_shift (F.zP s) hx hy (by omega) (by omega),
    show (k : ℤ) - (n + 1) - s = k - (n + s + 1) by ring]
  have e2 : x ^ (n + 2) = x * x ^ ((n : ℤ) + 1) := by
    rw [← zpow_natCast, ← zpow_one_add₀ hx]; congr 1; push_cast; ring
  rw [e2, zpow_natCast]
  ring

/-- The coefficients as one family: 0 is `P`, 1 is `Q`, 2 is `W`. -/
def fam (P Q W : ℕ → ℤ → ℤ → ℝ) (i : Fin 3 × ℕ) : ℤ → ℤ → ℝ := (![P, Q, W] : Fin 3 → _) i.1 i.2

/-- The generating series of a coefficient. -/
noncomputable def ser (f : ℤ → ℤ → ℝ) (x y : ℝ) : PowerSeries ℝ := PowerSeries.mk fun k : ℕ => lev f x y k

/-- A monomial. -/
noncomputable def mono (c : ℝ) (m : ℕ) : PowerSeries ℝ := PowerSeries.C c * PowerSeries.X ^ m

theorem coeff_mono (c : ℝ) (m : ℕ) (f : ℤ → ℤ → ℝ) (x y : ℝ) (k : ℕ) :
    PowerSeries.coeff k (mono c m * ser f x y) = c * lev f x y ((k : ℤ) - m) := by
  rw [mono, mul_assoc, PowerSeries.coeff_C_mul, PowerSeries.coeff_X_pow_mul']
  by_cases h : m ≤ k
  · rw [if_pos h, ser, PowerSeries.coeff_mk, Nat.cast_sub h]
  · rw [if_neg h, lev_neg _ _ _ (by omega)]

/-- The matrix of the system. -/
noncomputable def mat (A B G H H' E J : ℕ → ℕ → ℝ) (wP wQ wW : ℕ → ℝ) (x y : ℝ) (i j : Fin 3 × ℕ) :
    PowerSeries ℝ :=
  let n := i.2
  let s := j.2
  match i.1, j.1 with
  | 0, 0 => mono (wP n * A n s * (x ^ n * y ^ s)) (n + s - 1)
      + mono (wP n * B n s * (x ^ (n + 2) * y ^ s)) (n + s + 1)
      + mono (wP n * G n s * (x ^ n * y ^ (s + 2))) (n + s + 1)
  | 0, 2 => mono (wP n * G n s * (x ^ n * y ^ (s + 2))) (n + s + 1)
  | 0, 1 => mono (wP n * H n s * (x ^ n * y ^ (s + 1))) (n + s)
  | 1, 0 => mono (wQ n * H' n s * (x ^ (n + 1) * y ^ s)) (n + s)
  | 1, 1 => mono (wQ n * E n s * (x ^ (n + 1) * y ^ (s + 1))) (n + s + 1)
  | 1, 2 => 0
  | 2, 0 => mono (wW n * J n s * (x ^ (n + 2) * y ^ s)) (n + s + 1)
  | 2, 1 => 0
  | 2, 2 => 0

variable {wP wQ wW : ℕ → ℝ}

theorem mat_symm (h : Weights lo A B G H H' E J wP wQ wW) (x y : ℝ) (i j : Fin 3 × ℕ) (hi : lo ≤ i.2)
    (hj : lo ≤ j.2) :
    mat A B G H H' E J wP wQ wW x y i j = mat A B G H H' E J wP wQ wW y x j i := by
  obtain ⟨c, n⟩ := i
  obtain ⟨d, s⟩ := j
  simp only at hi hj
  have e0 : n + s - 1 = s + n - 1 := by omega
  have e1 : n + s + 1 = s + n + 1 := by omega
  have e2 : n + s = s + n := by omega
  fin_cases c <;> fin_cases d <;> simp only [mat]
  · rw [h.A n s hi hj, h.BG n s hi hj, ← h.BG s n hj hi, mul_comm (x ^ n), mul_comm (x ^ (n + 2)),
      mul_comm (x ^ n) (y ^ (s + 2)), e0, e1]
    ring
  · rw [h.H n s hi hj, mul_comm (x ^ n), e2]
  · rw [h.GJ n s hi hj, mul_comm (x ^ n), e1]
  · rw [← h.H s n hj hi, mul_comm (x ^ (n + 1)), e2]
  · rw [h.E n s hi hj, mul_comm (x ^ (n + 1)), e1]
  · rw [← h.GJ s n hj hi, mul_comm (x ^ (n + 2)), e1]

/-- The system, to any order. -/
theorem Family.system (F : Family lo P Q W A B G H H' E J cP cQ) (hlo : 1 ≤ lo) (wP wQ wW : ℕ → ℝ) {x y : ℝ}
    (hx : x ≠ 0) (hy : y ≠ 0) (N : ℕ) (i : Fin 3 × ℕ) (hi : i ∈ univ ×ˢ Icc lo N) :
    (PowerSeries.X ^ (N + 1) : PowerSeries ℝ) ∣
      PowerSeries.C ((![wP, wQ, wW] : Fin 3 → ℕ → ℝ) i.1 i.2 * x) * ser (fam P Q W i) x y
      - PowerSeries.C ((![wP, wQ, wW] : Fin 3 → ℕ → ℝ) i.1 i.2 * x * (![cP, cQ, 0] : Fin 3 → ℕ → ℝ) i.1 i.2)
      - ∑ j ∈ univ ×ˢ Icc lo N, mat A B G H H' E J wP wQ wW x y i j * ser (fam P Q W j) y x := by
  obtain ⟨c, n⟩ := i
  rw [mem_product, mem_Icc] at hi
  simp only at hi
  have hn : 1 ≤ n := by omega
  rw [PowerSeries.X_pow_dvd_iff]
  intro k hk
  have hk : k ≤ N := by omega
  rw [map_sub, map_sub, map_sum, PowerSeries.coeff_C_mul, PowerSeries.coeff_C, sum_product,
    Fin.sum_univ_three, ser, PowerSeries.coeff_mk]
  have hc1 : ∀ s, ((n + s - 1 : ℕ) : ℤ) = n + s - 1 := by intro s; omega
  fin_cases c
  · have h := F.levP hx hy hn hk
    simp only [mat, fam, add_mul, map_add, coeff_mono, Matrix.cons_val, hc1, Fin.zero_eta, Nat.cast_add,
      Nat.cast_one]
    rw [mul_assoc, h, ← sum_add_distrib, ← sum_add_distrib, mul_add, mul_sum, add_sub_right_comm]
    rw [show wP n * (if k = 0 then x * cP n else 0) - (if k = 0 then wP n * x * cP n else 0) = 0 by
      split_ifs <;> ring, zero_add, ← sum_sub_distrib]
    refine sum_eq_zero fun s _ => ?_
    ring
  · have h := F.levQ hx hy hn hk
    simp only [mat, fam, add_mul, map_add, coeff_mono, Matrix.cons_val, Fin.mk_one, Nat.cast_add,
      Nat.cast_one, zero_mul, map_zero]
    rw [mul_assoc, h, ← sum_add_distrib, ← sum_add_distrib, mul_add, mul_sum, add_sub_right_comm]
    rw [show wQ n * (if k = 0 then x * cQ n else 0) - (if k = 0 then wQ n * x * cQ n else 0) = 0 by
      split_ifs <;> ring, zero_add, ← sum_sub_distrib]
    refine sum_eq_zero fun s _ => ?_
    ring
  · have h := F.levW hx hy hn hk
    simp only [mat, fam, add_mul, map_add, coeff_mono, Matrix.cons_val, Fin.reduceFinMk, Nat.cast_add,
      Nat.cast_one, zero_mul, map_zero]
    rw [mul_assoc, h, ← sum_add_distrib, ← sum_add_distrib, mul_sum]
    simp only [Pi.zero_apply, mul_zero, ite_self, sub_zero, ← sum_sub_distrib]
    refine sum_eq_zero fun s _ => ?_
    ring

/-- Sign of a coefficient: `c + n` for `P` and `W`, one more for `Q`. -/
def sgn (c : ℕ) (i : Fin 3 × ℕ) : ℝ := (-1) ^ (c + i.2 + (![0, 1, 0] : Fin 3 → ℕ) i.1)

theorem rescale_mono (c : ℝ) (m : ℕ) :
    PowerSeries.rescale (-1 : ℝ) (mono c m) = PowerSeries.C ((-1) ^ m) * mono c m := by
  ext k
  simp only [mono, PowerSeries.coeff_rescale, PowerSeries.coeff_C_mul, PowerSeries.coeff_X_pow]
  split_ifs with h
  · rw [h]
  · simp

theorem mat_rescale (x y : ℝ) (c : ℕ) (i j : Fin 3 × ℕ) (hi : 1 ≤ i.2) :
    PowerSeries.C (sgn c i) * PowerSeries.rescale (-1 : ℝ) (mat A B G H H' E J wP wQ wW x y i j)
      = -(PowerSeries.C (sgn c j) * mat A B G H H' E J wP wQ wW x y i j) := by
  obtain ⟨d, n⟩ := i
  obtain ⟨e, s⟩ := j
  simp only at hi
  obtain ⟨n, rfl⟩ : ∃ m, n = m + 1 := ⟨n - 1, by omega⟩
  have sq : ∀ m : ℕ, ((-1 : ℝ) ^ m) * (-1) ^ m = 1 := by
    intro m; rw [← mul_pow]; norm_num
  have h0 : (-1 : ℝ) ^ (c + (n + 1) + 0) * (-1) ^ (n + 1 + s - 1) = -(-1) ^ (c + s + 0) := by
    rw [show n + 1 + s - 1 = n + s by omega]
    simp only [pow_add, pow_one, pow_zero]
    linear_combination (-(-1 : ℝ) ^ c * (-1) ^ s) * sq n
  have h1 : (-1 : ℝ) ^ (c + (n + 1) + 0) * (-1) ^ (n + 1 + s + 1) = -(-1) ^ (c + s + 0) := by
    simp only [pow_add, pow_one, pow_zero]
    linear_combination (-(-1 : ℝ) ^ c * (-1) ^ s) * sq n
  have h2 : (-1 : ℝ) ^ (c + (n + 1) + 0) * (-1) ^ (n + 1 + s) = -(-1) ^ (c + s + 1) := by
    simp only [pow_add, pow_one, pow_zero]
    linear_combination ((-1 : ℝ) ^ c * (-1) ^ s) * sq n
  have h3 : (-1 : ℝ) ^ (c + (n + 1) + 1) * (-1) ^ (n + 1 + s) = -(-1) ^ (c + s + 0) := by
    simp only [pow_add, pow_one, pow_zero]
    linear_combination (-(-1 : ℝ) ^ c * (-1) ^ s) * sq n
  have h4 : (-1 : ℝ) ^ (c + (n + 1) + 1) * (-1) ^ (n + 1 + s + 1) = -(-1) ^ (c + s + 1) := by
    simp only [pow_add, pow_one, pow_zero]
    linear_combination ((-1 : ℝ) ^ c * (-1) ^ s) * sq n
  fin_cases d <;> fin_cases e <;>
    simp only [mat, sgn, Matrix.cons_val, Fin.zero_eta, Fin.mk_one, Fin.reduceFinMk, map_add, map_zero,
      rescale_mono, mul_add, mul_zero, neg_zero, ← mul_assoc, ← map_mul, h0, h1, h2, h3, h4, map_neg, neg_mul,
      neg_add]

/-- **Reciprocity.** For a source in the coefficient `i0`, the odd-degree part of that coefficient is
reciprocal. -/
theorem Family.reciprocal (F : Family lo P Q W A B G H H' E J cP cQ) (hlo : 1 ≤ lo)
    (h : Weights lo A B G H H' E J wP wQ wW) {i0 : Fin 3 × ℕ} (hi0 : lo ≤ i0.2)
    (hw : (![wP, wQ, wW] : Fin 3 → ℕ → ℝ) i0.1 i0.2 ≠ 0)
    (hc : (![cP, cQ, 0] : Fin 3 → ℕ → ℝ) i0.1 i0.2 = 1)
    (hc' : ∀ i, i ≠ i0 → (![cP, cQ, 0] : Fin 3 → ℕ → ℝ) i.1 i.2 = 0) {x y : ℝ} (hx : x ≠ 0) (hy : y ≠ 0) {k : ℕ}
    (hk : k % 2 = 1) : x * lev (fam P Q W i0) x y k = y * lev (fam P Q W i0) y x k := by
  set N := max k i0.2 with hN
  set I : Finset (Fin 3 × ℕ) := univ ×ˢ Icc lo N with hI
  set w : Fin 3 × ℕ → ℝ := fun i => (![wP, wQ, wW] : Fin 3 → ℕ → ℝ) i.1 i.2 with hwd
  set src : Fin 3 × ℕ → ℝ := fun i => (![cP, cQ, 0] : Fin 3 → ℕ → ℝ) i.1 i.2 with hsd
  set K := mat A B G H H' E J wP wQ wW with hK
  set c := i0.2 + (![0, 1, 0] : Fin 3 → ℕ) i0.1 with hcd
  have hlI : ∀ i ∈ I, lo ≤ i.2 := by
    intro i hi; rw [hI, mem_product, mem_Icc] at hi; exact hi.2.1
  have hsg : sgn c i0 = 1 := by
    rw [sgn, hcd]
    exact Even.neg_one_pow ⟨i0.2 + (![0, 1, 0] : Fin 3 → ℕ) i0.1, by omega⟩
  have hsrc : ∀ i, sgn c i * src i = src i := by
    intro i
    by_cases e : i = i0
    · rw [e, hsg, one_mul]
    · rw [show src i = 0 from hc' i e, mul_zero]
  have ha := F.system hlo wP wQ wW hx hy N
  have ha' := F.system hlo wP wQ wW hy hx N
  have flip : ∀ {x y : ℝ}, (∀ i ∈ I, (PowerSeries.X ^ (N + 1) : PowerSeries ℝ) ∣
      PowerSeries.C (w i * x) * ser (fam P Q W i) x y - PowerSeries.C (w i * x * src i)
        - ∑ j ∈ I, K x y i j * ser (fam P Q W j) y x) → ∀ i ∈ I, (PowerSeries.X ^ (N + 1) : PowerSeries ℝ) ∣
      PowerSeries.C (w i * x) * (PowerSeries.C (sgn c i) * PowerSeries.rescale (-1) (ser (fam P Q W i) x y))
        - PowerSeries.C (w i * x * src i)
        - ∑ j ∈ I, K x y i j
          * (-(PowerSeries.C (sgn c j) * PowerSeries.rescale (-1) (ser (fam P Q W j) y x))) := by
    intro x y h i hi
    have h1 := map_dvd (PowerSeries.rescale (-1 : ℝ)) (h i hi)
    have h2 : (PowerSeries.X ^ (N + 1) : PowerSeries ℝ) ∣
        PowerSeries.rescale (-1 : ℝ) (PowerSeries.X ^ (N + 1)) := by
      have := rescale_mono 1 (N + 1)
      simp only [mono, map_one, one_mul] at this
      rw [this]
      exact Dvd.intro_left _ rfl
    have h3 := Dvd.dvd.mul_left (h2.trans h1) (PowerSeries.C (sgn c i))
    refine h3.trans (dvd_of_eq ?_)
    rw [map_sub, map_sub, map_mul, map_sum, mul_sub, mul_sub, mul_sum]
    have rC : ∀ r : ℝ, PowerSeries.rescale (-1 : ℝ) (PowerSeries.C r) = PowerSeries.C r := by
      intro r
      have := rescale_mono r 0
      simpa [mono] using this
    rw [rC, rC]
    congr 1
    · congr 1
      · ring
      · rw [← map_mul, ← hsrc i]
        congr 1
        rw [hsrc i]
        linear_combination (w i * x) * hsrc i
    · refine sum_congr rfl fun j _ => ?_
      rw [map_mul, ← mul_assoc, mat_rescale x y c i j (hlo.trans (hlI i hi))]
      ring
  have hb := flip ha
  have hb' := flip ha'
  have tr : ∀ {a : Fin 3 × ℕ → PowerSeries ℝ} {z : Fin 3 × ℕ → PowerSeries ℝ},
      (∀ i ∈ I, (PowerSeries.X ^ (N + 1) : PowerSeries ℝ) ∣ z i - ∑ j ∈ I, K y x i j * a j) →
      ∀ j ∈ I, (PowerSeries.X ^ (N + 1) : PowerSeries ℝ) ∣ z j - ∑ i ∈ I, K x y i j * a i := by
    intro a z h' j hj
    rw [sum_congr rfl fun i hi => by rw [hK, mat_symm h x y i j (hlI i hi) (hlI j hj)]]
    exact h' j hj
  have g := green I (PowerSeries.X ^ (N + 1) : PowerSeries ℝ) (fun i => PowerSeries.C (w i * x))
    (fun i => PowerSeries.C (w i * y)) (K x y) (fun i => ser (fam P Q W i) x y)
    (fun i => ser (fam P Q W i) y x)
    (fun i => PowerSeries.C (sgn c i) * PowerSeries.rescale (-1) (ser (fam P Q W i) x y))
    (fun i => -(PowerSeries.C (sgn c i) * PowerSeries.rescale (-1) (ser (fam P Q W i) y x)))
    (fun i => PowerSeries.C (w i * x * src i)) (fun i => PowerSeries.C (w i * y * src i))
    (fun i => PowerSeries.C (w i * x * src i)) (fun i => -PowerSeries.C (w i * y * src i))
    ha (tr ha') hb (tr (z := fun j => PowerSeries.C (w j * y)
      * (-(PowerSeries.C (sgn c j) * PowerSeries.rescale (-1) (ser (fam P Q W j) y x)))
      - -PowerSeries.C (w j * y * src j)) fun i hi => by
        have := dvd_neg.mpr (hb' i hi)
        refine this.trans (dvd_of_eq ?_)
        simp only [mul_neg, sum_neg_distrib]
        ring)
  have hi0I : i0 ∈ I := by
    rw [hI, mem_product, mem_Icc]
    exact ⟨mem_univ _, hi0, le_max_right _ _⟩
  have one : ∀ (r : ℝ) (z : Fin 3 × ℕ → PowerSeries ℝ),
      ∑ i ∈ I, PowerSeries.C (w i * r * src i) * z i = PowerSeries.C (w i0 * r) * z i0 := by
    intro r z
    rw [sum_eq_single_of_mem i0 hi0I]
    · rw [show src i0 = 1 from hc, mul_one]
    · intro i _ hi
      rw [show src i = 0 from hc' i hi, mul_zero, map_zero, zero_mul]
  simp only [neg_mul, sum_neg_distrib] at g
  rw [one, one, one, one, hsg, map_one, one_mul, one_mul, PowerSeries.X_pow_dvd_iff] at g
  have gk := g k (by omega)
  simp only [map_sub, map_add, map_neg, mul_neg, PowerSeries.coeff_C_mul, PowerSeries.coeff_rescale, ser,
    PowerSeries.coeff_mk] at gk
  have ho : (-1 : ℝ) ^ k = -1 := Odd.neg_one_pow (Nat.odd_iff.mpr hk)
  rw [ho] at gk
  refine mul_left_cancel₀ hw ?_
  change w i0 * _ = w i0 * _
  linear_combination (-1 / 2) * gk

end

end SD.Reflect
