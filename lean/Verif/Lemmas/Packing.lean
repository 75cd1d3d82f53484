import Verif.Spec.FarField
import Mathlib.MeasureTheory.Measure.Lebesgue.EqHaar
import Mathlib.Analysis.InnerProductSpace.PiL2
import Mathlib.MeasureTheory.Constructions.BorelSpace.Basic

/-!
# How many points fit near a point

Points that keep a distance from each other are the centres of disjoint balls, so that a ball holds only so many of
them.
-/

set_option autoImplicit false

namespace SD

open Spec MeasureTheory Metric

/-- Counting by volume. -/
theorem pack_volume (s : Finset (EuclideanSpace ℝ (Fin 3))) {del R : ℝ} (hd : 0 < del) (hR : 0 ≤ R)
    (z : EuclideanSpace ℝ (Fin 3)) (hs : ∀ c ∈ s, dist c z ≤ R)
    (h : ∀ c ∈ s, ∀ e ∈ s, c ≠ e → 2 * del ≤ dist c e) : (s.card : ℝ) * del ^ 3 ≤ (R + del) ^ 3 := by
  borelize (EuclideanSpace ℝ (Fin 3))
  let mu : Measure (EuclideanSpace ℝ (Fin 3)) := Measure.addHaar
  have fr : Module.finrank ℝ (EuclideanSpace ℝ (Fin 3)) = 3 := by simp
  have rpos : 0 < R + del := by linarith
  have D : Set.Pairwise (s : Set (EuclideanSpace ℝ (Fin 3))) (Function.onFun Disjoint fun c => ball c del) := by
    intro c hc e he hce
    exact ball_disjoint_ball (by have := h c hc e he hce; linarith)
  have sub : (⋃ c ∈ s, ball c del) ⊆ ball z (R + del) := by
    refine Set.iUnion₂_subset fun x hx => ?_
    apply ball_subset_ball'
    have := hs x hx
    linarith
  have I : (s.card : ENNReal) * ENNReal.ofReal (del ^ 3) * mu (ball 0 1)
      ≤ ENNReal.ofReal ((R + del) ^ 3) * mu (ball 0 1) := by
    calc (s.card : ENNReal) * ENNReal.ofReal (del ^ 3) * mu (ball 0 1) = mu (⋃ c ∈ s, ball c del) := by
          rw [measure_biUnion_finset D fun c _ => measurableSet_ball]
          simp only [mu.addHaar_ball_of_pos _ hd, fr]
          simp only [Finset.sum_const, nsmul_eq_mul, mul_assoc]
      _ ≤ mu (ball z (R + del)) := measure_mono sub
      _ = ENNReal.ofReal ((R + del) ^ 3) * mu (ball 0 1) := by
          simp only [mu.addHaar_ball_of_pos _ rpos, fr]
  have J : (s.card : ENNReal) * ENNReal.ofReal (del ^ 3) ≤ ENNReal.ofReal ((R + del) ^ 3) :=
    (ENNReal.mul_le_mul_iff_left (measure_ball_pos _ _ zero_lt_one).ne' measure_ball_lt_top.ne).1 I
  have K := ENNReal.toReal_le_of_le_ofReal (by positivity) J
  rwa [ENNReal.toReal_mul, ENNReal.toReal_natCast, ENNReal.toReal_ofReal (by positivity)] at K

/-- The same for numbered points. -/
theorem pack_count (c : ℕ → Fin 3 → ℝ) (I : Finset ℕ) {del R : ℝ} (hd : 0 < del) (hR : 0 ≤ R) (z : Fin 3 → ℝ)
    (hs : ∀ x ∈ I, len (fun i => c x i - z i) ≤ R)
    (h : ∀ x ∈ I, ∀ y ∈ I, x ≠ y → 2 * del ≤ len (fun i => c x i - c y i)) :
    (I.card : ℝ) * del ^ 3 ≤ (R + del) ^ 3 := by
  classical
  have hdist : ∀ u v : Fin 3 → ℝ, dist (WithLp.toLp 2 u) (WithLp.toLp 2 v) = len (fun i => u i - v i) := by
    intro u v
    rw [EuclideanSpace.dist_eq, len]
    simp only [Real.dist_eq, sq_abs]
  have inj : Set.InjOn (fun x => WithLp.toLp 2 (c x)) (I : Set ℕ) := by
    intro x hx y hy hxy
    by_contra hne
    have := h x hx y hy hne
    rw [← hdist, show WithLp.toLp 2 (c x) = WithLp.toLp 2 (c y) from hxy, dist_self] at this
    linarith
  have := pack_volume (I.image fun x => WithLp.toLp 2 (c x)) hd hR (WithLp.toLp 2 z) (by
    intro e he
    obtain ⟨x, hx, rfl⟩ := Finset.mem_image.mp he
    rw [hdist]; exact hs x hx) (by
    intro e he f hf hef
    obtain ⟨x, hx, rfl⟩ := Finset.mem_image.mp he
    obtain ⟨y, hy, rfl⟩ := Finset.mem_image.mp hf
    rw [hdist]
    exact h x hx y hy (fun hxy => hef (by rw [hxy])))
  rwa [Finset.card_image_of_injOn inj] at this

end SD
