import Verif.Lemmas.EwaldDecay
import Verif.Lemmas.EwaldWaves
import Verif.Lemmas.Lattice
import Verif.Spec.Layers
import Mathlib.Analysis.PSeries
import Mathlib.Analysis.Normed.Group.InfiniteSum
import Mathlib.Analysis.Normed.Group.Constructions
import Mathlib.Analysis.Normed.Ring.InfiniteSum
import Mathlib.Analysis.Normed.Group.Int

/-!
# Sums over a lattice of rapidly decaying terms
-/

set_option autoImplicit false

namespace SD.Ewald

open Spec Filter Topology

/-! ## Rapid convergence -/

theorem _root_.SD.Spec.RapidTo.tendsto {u : ℕ → ℝ} {l : ℝ} (h : RapidTo u l) : Tendsto u atTop (𝓝 l) := by
  obtain ⟨C, hC⟩ := h 1
  rw [tendsto_iff_norm_sub_tendsto_zero]
  refine squeeze_zero' (Eventually.of_forall fun _ => norm_nonneg _) ?_ (tendsto_const_div_atTop_nhds_zero_nat C)
  filter_upwards [eventually_ge_atTop 1] with n hn
  simpa using hC n hn

theorem _root_.SD.Spec.RapidTo.add {u v : ℕ → ℝ} {l m : ℝ} (hu : RapidTo u l) (hv : RapidTo v m) :
    RapidTo (fun n => u n + v n) (l + m) := fun p => by
  obtain ⟨C, hC⟩ := hu p
  obtain ⟨D, hD⟩ := hv p
  refine ⟨C + D, fun n hn => ?_⟩
  rw [add_div, add_sub_add_comm]
  exact (abs_add_le _ _).trans (add_le_add (hC n hn) (hD n hn))

theorem _root_.SD.Spec.RapidTo.const_mul {u : ℕ → ℝ} {l : ℝ} (hu : RapidTo u l) (c : ℝ) :
    RapidTo (fun n => c * u n) (c * l) := fun p => by
  obtain ⟨C, hC⟩ := hu p
  refine ⟨|c| * C, fun n hn => ?_⟩
  rw [← mul_sub, abs_mul, mul_div_assoc]
  exact mul_le_mul_of_nonneg_left (hC n hn) (abs_nonneg _)

theorem rapid_const (c : ℝ) : RapidTo (fun _ => c) c := fun p => ⟨0, fun n _ => by simp⟩

theorem _root_.SD.Spec.RapidTo.congr {u v : ℕ → ℝ} {l : ℝ} (hu : RapidTo u l) (h : ∀ n, 1 ≤ n → v n = u n) : RapidTo v l := fun p => by
  obtain ⟨C, hC⟩ := hu p
  exact ⟨C, fun n hn => by rw [h n hn]; exact hC n hn⟩

theorem _root_.SD.Spec.RapidTo.sum {ι : Type*} (s : Finset ι) {u : ι → ℕ → ℝ} {l : ι → ℝ} (h : ∀ x ∈ s, RapidTo (u x) (l x)) :
    RapidTo (fun n => ∑ x ∈ s, u x n) (∑ x ∈ s, l x) := by
  classical
  induction s using Finset.induction_on with
  | empty => simpa using rapid_const 0
  | insert a s ha ih =>
    simp only [Finset.sum_insert ha]
    exact (h a (by simp)).add (ih fun x hx => h x (by simp [hx]))

/-! ## Summation over the integer lattice -/

/-- Decays faster than any power. -/
def Fast (f : (Fin 3 → ℤ) → ℝ) : Prop := ∀ p : ℕ, ∃ C, ∀ g : Fin 3 → ℤ, g ≠ 0 → |f g| ≤ C / ‖g‖ ^ p

theorem one_le_norm {g : Fin 3 → ℤ} (hg : g ≠ 0) : 1 ≤ ‖g‖ := by
  obtain ⟨i, hi⟩ := Function.ne_iff.mp hg
  refine le_trans ?_ (norm_le_pi_norm g i)
  rw [Int.norm_eq_abs]
  exact_mod_cast Int.one_le_abs hi

theorem summable_one : Summable fun z : ℤ => 1 / (1 + (z : ℝ) ^ 2) := by
  have h := (Real.summable_one_div_int_pow (p := 2)).mpr (by norm_num)
  have h' : Summable fun z : ℤ => (if z = 0 then 1 else 0) + 1 / (z : ℝ) ^ 2 :=
    ((hasSum_ite_eq (0 : ℤ) (1 : ℝ)).summable).add h
  refine Summable.of_nonneg_of_le (fun z => by positivity) (fun z => ?_) h'
  by_cases hz : z = 0
  · simp [hz]
  · rw [if_neg hz, zero_add]
    have : (0 : ℝ) < (z : ℝ) ^ 2 := by positivity
    exact one_div_le_one_div_of_le this (by linarith)

theorem summable_three : Summable fun g : Fin 3 → ℤ =>
    1 / (1 + (g 0 : ℝ) ^ 2) * (1 / (1 + (g 1 : ℝ) ^ 2) * (1 / (1 + (g 2 : ℝ) ^ 2))) := by
  have h := summable_one
  have n1 : (0 : ℤ → ℝ) ≤ fun z : ℤ => 1 / (1 + (z : ℝ) ^ 2) := fun z => by
    simp only [Pi.zero_apply]; positivity
  have h2 := h.mul_of_nonneg h n1 n1
  have h3 := h.mul_of_nonneg h2 n1 (fun z => by simp only [Pi.zero_apply]; positivity)
  have inj : Function.Injective fun g : Fin 3 → ℤ => (g 0, g 1, g 2) := by
    intro g g' e
    simp only [Prod.mk.injEq] at e
    funext i; fin_cases i
    · exact e.1
    · exact e.2.1
    · exact e.2.2
  have h4 := h3.comp_injective inj
  simpa only [Function.comp_def] using h4

theorem summable_norm : Summable fun g : Fin 3 → ℤ => 1 / ‖g‖ ^ 6 := by
  refine Summable.of_nonneg_of_le (fun g => by positivity) (fun g => ?_) (summable_three.mul_left 8)
  by_cases hg : g = 0
  · subst hg; simp
  have h1 := one_le_norm hg
  have h2 : ∀ i, 1 + (g i : ℝ) ^ 2 ≤ 2 * ‖g‖ ^ 2 := by
    intro i
    have := norm_le_pi_norm g i
    rw [Int.norm_eq_abs] at this
    have h3 : (g i : ℝ) ^ 2 ≤ ‖g‖ ^ 2 := by rw [← sq_abs]; gcongr
    nlinarith
  have h4 : ∀ i, 1 / (2 * ‖g‖ ^ 2) ≤ 1 / (1 + (g i : ℝ) ^ 2) := fun i =>
    one_div_le_one_div_of_le (by positivity) (h2 i)
  have h5 : 0 ≤ 1 / (2 * ‖g‖ ^ 2) := by positivity
  have h6 : 1 / (2 * ‖g‖ ^ 2) * (1 / (2 * ‖g‖ ^ 2) * (1 / (2 * ‖g‖ ^ 2)))
      ≤ 1 / (1 + (g 0 : ℝ) ^ 2) * (1 / (1 + (g 1 : ℝ) ^ 2) * (1 / (1 + (g 2 : ℝ) ^ 2))) :=
    mul_le_mul (h4 0) (mul_le_mul (h4 1) (h4 2) h5 (h5.trans (h4 1))) (by positivity) (h5.trans (h4 0))
  refine le_trans (le_of_eq ?_) (mul_le_mul_of_nonneg_left h6 (by norm_num))
  have : (0 : ℝ) < ‖g‖ := by linarith
  field_simp
  norm_num

theorem Fast.summable {f : (Fin 3 → ℤ) → ℝ} (hf : Fast f) : Summable f := by
  obtain ⟨C, hC⟩ := hf 6
  have h : Summable fun g : Fin 3 → ℤ => (if g = 0 then |f 0| else 0) + C * (1 / ‖g‖ ^ 6) :=
    ((hasSum_ite_eq (0 : Fin 3 → ℤ) (|f 0|)).summable).add (summable_norm.mul_left C)
  refine Summable.of_norm_bounded h fun g => ?_
  by_cases hg : g = 0
  · subst hg; simp
  · rw [if_neg hg, zero_add, mul_one_div, Real.norm_eq_abs]
    exact hC g hg

/-- The sum over the first layers approaches the whole sum rapidly. -/
theorem Fast.layers {f : (Fin 3 → ℤ) → ℝ} (hf : Fast f) {s : ℕ → Finset (Fin 3 → ℤ)} {κ : ℝ} (hκ : 0 < κ)
    (hs : ∀ n g, 1 ≤ n → g ∉ s n → κ * n ≤ ‖g‖) : RapidTo (fun n => ∑ g ∈ s n, f g) (∑' g, f g) := by
  classical
  intro p
  obtain ⟨C, hC⟩ := hf (p + 6)
  refine ⟨C / κ ^ p * ∑' g : Fin 3 → ℤ, 1 / ‖g‖ ^ 6, fun n hn => ?_⟩
  have hn' : (0 : ℝ) < n := by exact_mod_cast hn
  have e : (∑' g, f g) = ∑ g ∈ s n, f g + ∑' g, if g ∈ s n then 0 else f g := by
    have h1 : Summable fun g => if g ∈ s n then f g else 0 := by
      refine summable_of_ne_finset_zero (s := s n) fun g hg => if_neg hg
    have h2 : Summable fun g => if g ∈ s n then 0 else f g := by
      refine (hf.summable.sub h1).congr fun g => ?_
      split_ifs <;> simp
    have h3 : ∑' g, (if g ∈ s n then f g else 0) = ∑ g ∈ s n, f g := by
      rw [tsum_eq_sum (s := s n) fun g hg => if_neg hg]
      exact Finset.sum_congr rfl fun g hg => if_pos hg
    rw [← h3, ← h1.tsum_add h2]
    congr 1
    funext g
    split_ifs <;> simp
  rw [e, sub_add_cancel_left, abs_neg]
  have hC0 : ∀ g : Fin 3 → ℤ, g ≠ 0 → 0 ≤ C := by
    intro g hg
    have h1 := (abs_nonneg _).trans (hC g hg)
    have h2 : (0 : ℝ) < ‖g‖ ^ (p + 6) := by have := one_le_norm hg; positivity
    rcases div_nonneg_iff.mp h1 with h | h
    · exact h.1
    · linarith [h.2]
  have hsum : HasSum (fun g : Fin 3 → ℤ => C / (κ * n) ^ p * (1 / ‖g‖ ^ 6))
      (C / (κ * n) ^ p * ∑' g : Fin 3 → ℤ, 1 / ‖g‖ ^ 6) := summable_norm.hasSum.mul_left _
  have key := tsum_of_norm_bounded hsum (f := fun g => if g ∈ s n then 0 else f g) fun g => by
    by_cases hg0 : g = 0
    · subst hg0
      split_ifs with h
      · simp
      · have := hs n 0 hn h
        rw [norm_zero] at this
        have : 0 < κ * n := by positivity
        linarith
    · have hC1 := hC0 g hg0
      have h1 := one_le_norm hg0
      split_ifs with h
      · rw [norm_zero]; positivity
      · rw [Real.norm_eq_abs]
        refine (hC g hg0).trans ?_
        rw [pow_add, ← div_div, div_eq_mul_one_div (C / ‖g‖ ^ p)]
        have h2 := hs n g hn h
        have h3 : (κ * n) ^ p ≤ ‖g‖ ^ p := pow_le_pow_left₀ (by positivity) h2 p
        exact mul_le_mul_of_nonneg_right (div_le_div_of_nonneg_left hC1 (by positivity) h3) (by positivity)
  rw [Real.norm_eq_abs] at key
  refine key.trans (le_of_eq ?_)
  rw [mul_pow]
  field_simp

/-! ## Lattices -/

theorem len_add_le (x y : Vec3) : len (fun m => x m + y m) ≤ len x + len y := by
  have e : ∀ x : Vec3, len x = ‖(WithLp.toLp 2 x : EuclideanSpace ℝ (Fin 3))‖ := by
    intro x
    rw [EuclideanSpace.norm_eq]
    unfold len
    congr 1
    exact Finset.sum_congr rfl fun i _ => by rw [Real.norm_eq_abs, sq_abs]
  rw [e, e x, e y]
  exact norm_add_le (WithLp.toLp 2 x) (WithLp.toLp 2 y)

theorem len_le_sum (x : Vec3) : len x ≤ |x 0| + |x 1| + |x 2| := by
  unfold len
  rw [Fin.sum_univ_three]
  refine Real.sqrt_le_iff.mpr ⟨by positivity, ?_⟩
  have h0 := abs_nonneg (x 0); have h1 := abs_nonneg (x 1); have h2 := abs_nonneg (x 2)
  rw [← sq_abs (x 0), ← sq_abs (x 1), ← sq_abs (x 2)]
  nlinarith [mul_nonneg h0 h1, mul_nonneg h1 h2, mul_nonneg h0 h2]

/-- Lattice vectors are at most proportional to their coordinates. -/
theorem len_grid_le (B : Mat3) : ∃ M > 0, ∀ g : Fin 3 → ℤ, len (gridVec B g) ≤ M * ‖g‖ := by
  refine ⟨1 + ∑ k, ∑ i, |B k i|, by positivity, fun g => ?_⟩
  have hg : ∀ k, |(g k : ℝ)| ≤ ‖g‖ := fun k => by rw [← Int.norm_eq_abs]; exact norm_le_pi_norm g k
  have h1 : ∀ i, |gridVec B g i| ≤ ∑ k, |B k i| * ‖g‖ := by
    intro i
    simp only [gridVec, vecMat3]
    refine (Finset.abs_sum_le_sum_abs _ _).trans (Finset.sum_le_sum fun k _ => ?_)
    rw [abs_mul, mul_comm]
    exact mul_le_mul_of_nonneg_left (hg k) (abs_nonneg _)
  have h2 := len_le_sum (gridVec B g)
  have h3 : |gridVec B g 0| + |gridVec B g 1| + |gridVec B g 2| ≤ (∑ k, ∑ i, |B k i|) * ‖g‖ := by
    rw [Finset.sum_comm, Finset.sum_mul]
    simp only [Finset.sum_mul]
    rw [Fin.sum_univ_three]
    exact add_le_add (add_le_add (h1 0) (h1 1)) (h1 2)
  have := norm_nonneg g
  rw [add_mul]
  linarith

/-- Lattice vectors are at least proportional to their coordinates. -/
theorem le_len_grid {B : Mat3} (h : Spans B) : ∃ c > 0, ∀ g : Fin 3 → ℤ, c * ‖g‖ ≤ len (gridVec B g) := by
  have hdet := (spans_iff B).mp h
  have hu : IsUnit (Matrix.of B).det := isUnit_iff_ne_zero.mpr hdet
  set A := (Matrix.of B)⁻¹ with hA
  have hBA : Matrix.of B * A = 1 := Matrix.mul_nonsing_inv _ hu
  set S : ℝ := 1 + ∑ i, ∑ k, |A i k| with hS
  have hS0 : 0 < S := by positivity
  refine ⟨1 / S, by positivity, fun g => ?_⟩
  rw [one_div_mul_eq_div, div_le_iff₀ hS0]
  have hcoord : ∀ k, (g k : ℝ) = ∑ i, gridVec B g i * A i k := by
    intro k
    have e : ∀ a, ∑ i, B a i * A i k = if a = k then 1 else 0 := by
      intro a
      have := congrFun (congrFun hBA a) k
      rwa [Matrix.mul_apply, Matrix.one_apply] at this
    have : ∑ i, gridVec B g i * A i k = ∑ a, (g a : ℝ) * ∑ i, B a i * A i k := by
      simp only [gridVec, vecMat3, Finset.sum_mul, Finset.mul_sum]
      rw [Finset.sum_comm]
      exact Finset.sum_congr rfl fun a _ => Finset.sum_congr rfl fun i _ => by ring
    rw [this]
    simp only [e]
    simp
  have hl : 0 ≤ len (gridVec B g) := Real.sqrt_nonneg _
  refine (pi_norm_le_iff_of_nonneg (by positivity)).mpr fun k => ?_
  rw [Int.norm_eq_abs, hcoord k]
  refine (Finset.abs_sum_le_sum_abs _ _).trans ?_
  have h1 : ∀ i, |gridVec B g i * A i k| ≤ len (gridVec B g) * |A i k| := fun i => by
    rw [abs_mul]; exact mul_le_mul_of_nonneg_right (abs_le_len _ i) (abs_nonneg _)
  refine (Finset.sum_le_sum fun i _ => h1 i).trans ?_
  rw [← Finset.mul_sum]
  refine mul_le_mul_of_nonneg_left ?_ hl
  have : ∑ i, |A i k| ≤ ∑ i, ∑ k, |A i k| := Finset.sum_le_sum fun i _ =>
    Finset.single_le_sum (f := fun k => |A i k|) (fun _ _ => abs_nonneg _) (Finset.mem_univ k)
  linarith

/-- A rapidly decaying function, summed over a lattice displaced by at most `ρ`. The bound does not depend on the
displacement or the parameter. -/
theorem Quick.lattice {β : Type} {f : β × Vec3 → ℝ} (hf : Quick f) {B : Mat3} (hB : Spans B) (ρ : ℝ) :
    ∃ N : ℝ, 1 ≤ N ∧ ∀ p : ℕ, ∃ C, ∀ (t : β) (r : Vec3) (g : Fin 3 → ℤ), len r ≤ ρ → N ≤ ‖g‖ →
      |f (t, fun m => r m + gridVec B g m)| ≤ C / ‖g‖ ^ p := by
  obtain ⟨c, hc, h⟩ := le_len_grid hB
  refine ⟨max 1 ((|ρ| + 1) * (2 / c)), le_max_left _ _, fun p => ?_⟩
  obtain ⟨C, hC⟩ := hf p
  refine ⟨|C| / (c / 2) ^ p, fun t r g hr hg => ?_⟩
  have hg1 : 1 ≤ ‖g‖ := (le_max_left _ _).trans hg
  have hg2 : (|ρ| + 1) * (2 / c) ≤ ‖g‖ := (le_max_right _ _).trans hg
  have h1 := h g
  have h2 : len (gridVec B g) ≤ len (fun m => r m + gridVec B g m) + len r := by
    have := len_add_le (fun m => r m + gridVec B g m) (fun m => -r m)
    have e : (fun m => (r m + gridVec B g m) + -r m) = gridVec B g := by funext m; ring
    have e' : len (fun m => -r m) = len r := by unfold len; simp
    rw [e, e'] at this
    exact this
  have h3 : |ρ| + 1 ≤ c / 2 * ‖g‖ := by
    have := mul_le_mul_of_nonneg_left hg2 (show 0 ≤ c / 2 by positivity)
    rwa [show c / 2 * ((|ρ| + 1) * (2 / c)) = |ρ| + 1 by field_simp] at this
  have hρ := le_abs_self ρ
  have h4 : c / 2 * ‖g‖ ≤ len fun m => r m + gridVec B g m := by linarith
  have h5 : 1 ≤ len fun m => r m + gridVec B g m := by linarith [abs_nonneg ρ]
  refine (hC (t, _) h5).trans ?_
  have h6 : (c / 2 * ‖g‖) ^ p ≤ (len fun m => r m + gridVec B g m) ^ p := pow_le_pow_left₀ (by positivity) h4 p
  refine (div_le_div_of_nonneg_right (le_abs_self C) (by positivity)).trans ?_
  refine (div_le_div_of_nonneg_left (abs_nonneg C) (by positivity) h6).trans (le_of_eq ?_)
  rw [mul_pow, div_div]

theorem finite_small (N : ℝ) : {g : Fin 3 → ℤ | ‖g‖ < N}.Finite := by
  have : {g : Fin 3 → ℤ | ‖g‖ < N} ⊆ Metric.closedBall 0 N := fun g hg => by
    rw [mem_closedBall_zero_iff]; exact le_of_lt hg
  exact ((isCompact_closedBall (0 : Fin 3 → ℤ) N).finite_of_discrete).subset this

/-- Finitely many terms do not matter. -/
theorem Fast.of_large {f : (Fin 3 → ℤ) → ℝ} {N : ℝ} (h : ∀ p : ℕ, ∃ C, ∀ g, N ≤ ‖g‖ → |f g| ≤ C / ‖g‖ ^ p) : Fast f := by
  intro p
  obtain ⟨C, hC⟩ := h p
  obtain ⟨D, hD⟩ := ((finite_small N).image fun g => |f g| * ‖g‖ ^ p).bddAbove
  refine ⟨max C D, fun g hg => ?_⟩
  have h1 := one_le_norm hg
  have h2 : (0 : ℝ) < ‖g‖ ^ p := by positivity
  by_cases hN : N ≤ ‖g‖
  · exact (hC g hN).trans (div_le_div_of_nonneg_right (le_max_left _ _) h2.le)
  · rw [le_div_iff₀ h2]
    exact (hD ⟨g, not_le.mp hN, rfl⟩).trans (le_max_right _ _)

theorem Quick.fast {β : Type} {f : β × Vec3 → ℝ} (hf : Quick f) {B : Mat3} (hB : Spans B) (t : β) (r : Vec3) :
    Fast fun g => f (t, fun m => r m + gridVec B g m) := by
  obtain ⟨N, -, h⟩ := hf.lattice hB (len r)
  refine Fast.of_large (N := N) fun p => ?_
  obtain ⟨C, hC⟩ := h p
  exact ⟨C, fun g hg => hC t r g le_rfl hg⟩

theorem Fast.ite {f : (Fin 3 → ℤ) → ℝ} (hf : Fast f) : Fast fun g => if g = 0 then 0 else f g := fun p => by
  obtain ⟨C, hC⟩ := hf p
  exact ⟨C, fun g hg => by simpa only [if_neg hg] using hC g hg⟩

end SD.Ewald
