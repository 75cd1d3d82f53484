import Verif.Lemmas.LatticeSum
import Mathlib.Analysis.Calculus.SmoothSeries

/-!
# Differentiating sums over lattices term by term
-/

set_option autoImplicit false

namespace SD.Ewald

open Spec Filter Topology

/-- Finitely many terms may be unbounded away from the point. -/
theorem hasDerivAt_lattice {F F' : (Fin 3 → ℤ) → ℝ → ℝ} {u : (Fin 3 → ℤ) → ℝ} {t0 : ℝ} {U : Set ℝ} (s : Finset (Fin 3 → ℤ))
    (hU : IsOpen U) (hU' : IsPreconnected U) (h0 : t0 ∈ U) (hs : ∀ g ∈ s, HasDerivAt (F g) (F' g t0) t0)
    (hF : ∀ g ∉ s, ∀ t ∈ U, HasDerivAt (F g) (F' g t) t) (hb : ∀ g ∉ s, ∀ t ∈ U, |F' g t| ≤ u g) (hu : Summable u)
    (hsum : ∀ t ∈ U, Summable fun g => F g t) : HasDerivAt (fun t => ∑' g, F g t) (∑' g, F' g t0) t0 := by
  classical
  have hu' : Summable fun g => |u g| := hu.abs
  have split : ∀ G : (Fin 3 → ℤ) → ℝ, Summable G → ∑' g, G g = ∑ g ∈ s, G g + ∑' g, if g ∈ s then 0 else G g := by
    intro G hG
    have h1 : Summable fun g => if g ∈ s then G g else 0 := summable_of_ne_finset_zero (s := s) fun g hg => if_neg hg
    have h2 : Summable fun g => if g ∈ s then 0 else G g := by
      refine (hG.sub h1).congr fun g => ?_
      split_ifs <;> simp
    have h3 : ∑' g, (if g ∈ s then G g else 0) = ∑ g ∈ s, G g := by
      rw [tsum_eq_sum (s := s) fun g hg => if_neg hg]
      exact Finset.sum_congr rfl fun g hg => if_pos hg
    rw [← h3, ← h1.tsum_add h2]
    congr 1
    funext g
    split_ifs <;> simp
  have hsum' : Summable fun g => F' g t0 := by
    have h1 : Summable fun g => (if g ∈ s then |F' g t0| else 0) + |u g| :=
      (summable_of_ne_finset_zero (s := s) fun g hg => if_neg hg).add hu'
    refine Summable.of_norm_bounded h1 fun g => ?_
    rw [Real.norm_eq_abs]
    split_ifs with hg
    · linarith [abs_nonneg (u g)]
    · rw [zero_add]; exact (hb g hg t0 h0).trans (le_abs_self _)
  have d1 : HasDerivAt (fun t => ∑ g ∈ s, F g t) (∑ g ∈ s, F' g t0) t0 := HasDerivAt.fun_sum hs
  have hs0 : Summable fun g => if g ∈ s then 0 else F g t0 := by
    refine ((hsum t0 h0).sub (summable_of_ne_finset_zero (s := s) (f := fun g => if g ∈ s then F g t0 else 0) fun g hg => if_neg hg)).congr fun g => ?_
    split_ifs <;> simp
  have d2 := hasDerivAt_tsum_of_isPreconnected (g := fun g t => if g ∈ s then 0 else F g t)
    (g' := fun g t => if g ∈ s then 0 else F' g t) hu' hU hU' (fun g t ht => by
      by_cases hg : g ∈ s
      · simp only [if_pos hg]; exact hasDerivAt_const _ _
      · simp only [if_neg hg]; exact hF g hg t ht) (fun g t ht => by
      by_cases hg : g ∈ s
      · simp only [if_pos hg, norm_zero]; exact abs_nonneg _
      · simp only [if_neg hg, Real.norm_eq_abs]; exact (hb g hg t ht).trans (le_abs_self _)) h0 hs0 h0
  rw [split _ hsum']
  refine (d1.fun_add d2).congr_of_eventuallyEq ?_
  filter_upwards [hU.mem_nhds h0] with t ht
  exact split _ (hsum t ht)

/-- Distant points of the lattice are far from zero. -/
theorem far_grid {B : Mat3} (hB : Spans B) (ρ : ℝ) : ∃ N : ℝ, 1 ≤ N ∧ ∀ (r : Vec3) (g : Fin 3 → ℤ), len r ≤ ρ → N ≤ ‖g‖ →
    1 ≤ len fun m => r m + gridVec B g m := by
  obtain ⟨c, hc, h⟩ := le_len_grid hB
  refine ⟨max 1 ((|ρ| + 1) / c), le_max_left _ _, fun r g hr hg => ?_⟩
  have hg2 : (|ρ| + 1) / c ≤ ‖g‖ := (le_max_right _ _).trans hg
  rw [div_le_iff₀ hc] at hg2
  have h1 := h g
  have h2 : len (gridVec B g) ≤ len (fun m => r m + gridVec B g m) + len r := by
    have := len_add_le (fun m => r m + gridVec B g m) (fun m => -r m)
    have e : (fun m => (r m + gridVec B g m) + -r m) = gridVec B g := by funext m; ring
    have e' : len (fun m => -r m) = len r := by unfold len; simp
    rw [e, e'] at this
    exact this
  have := le_abs_self ρ
  linarith

theorem ne_zero_of_len {y : Vec3} (h : 1 ≤ len y) : y ≠ 0 := by
  rintro rfl
  have : len 0 = 0 := by unfold len; simp
  linarith

theorem len_update_le (r : Vec3) (l : Fin 3) (t : ℝ) : len (Function.update r l t) ≤ len r + |t - r l| := by
  have e : Function.update r l t = fun m => r m + (if m = l then t - r l else 0) := by
    funext m
    by_cases hm : m = l
    · subst hm; simp
    · simp [hm]
  rw [e]
  refine (len_add_le r _).trans ?_
  have : len (fun m => if m = l then t - r l else 0) = |t - r l| := by
    unfold len
    rw [← Real.sqrt_sq_eq_abs]
    congr 1
    simp [ite_pow]
  rw [this]

/-- Displacements that reach no image. -/
def Off (B : Mat3) : Set Vec3 := {r | ∀ g : Fin 3 → ℤ, (fun m => r m + gridVec B g m) ≠ 0}

theorem isOpen_off {B : Mat3} (hB : Spans B) : IsOpen (Off B) := by
  rw [isOpen_iff_mem_nhds]
  intro r hr
  obtain ⟨N, -, hN⟩ := far_grid hB (len r + 1)
  have h1 : ∀ᶠ y in 𝓝 r, len y < len r + 1 :=
    (len_continuous.tendsto r).eventually (gt_mem_nhds (by linarith))
  have h2 : ∀ᶠ y in 𝓝 r, ∀ g ∈ {g : Fin 3 → ℤ | ‖g‖ < N}, (fun m => y m + gridVec B g m) ≠ 0 := by
    rw [(finite_small N).eventually_all]
    intro g _
    have hc : Continuous fun y : Vec3 => fun m => y m + gridVec B g m := by fun_prop
    exact hc.continuousAt.eventually_ne (hr g)
  filter_upwards [h1, h2] with y hy1 hy2
  intro g
  by_cases hg : ‖g‖ < N
  · exact hy2 g hg
  · exact ne_zero_of_len (hN y g hy1.le (not_lt.mp hg))

/-- Sum over images. -/
theorem images_pd {B : Mat3} (hB : Spans B) {l : Fin 3} {f f' : Vec3 → ℝ} (hpd : ∀ y, y ≠ 0 → HasPd l f (f' y) y)
    (hf : Quick fun y : Unit × Vec3 => f y.2) (hf' : Quick fun y : Unit × Vec3 => f' y.2) {r : Vec3} (hr : r ∈ Off B) :
    HasPd l (fun r => ∑' g, f fun m => r m + gridVec B g m) (∑' g, f' fun m => r m + gridVec B g m) r := by
  obtain ⟨N, -, hN⟩ := far_grid hB (len r + 1)
  obtain ⟨M, hM, h2⟩ := hf'.lattice hB (len r + 1)
  obtain ⟨C, hC⟩ := h2 6
  have hfin := finite_small (max N M)
  have hs : ∀ g, g ∉ hfin.toFinset → N ≤ ‖g‖ ∧ M ≤ ‖g‖ := fun g hg => by
    rw [Set.Finite.mem_toFinset] at hg
    have : max N M ≤ ‖g‖ := not_lt.mp hg
    exact ⟨(le_max_left _ _).trans this, (le_max_right _ _).trans this⟩
  have hlen : ∀ t ∈ Metric.ball (r l) 1, len (Function.update r l t) ≤ len r + 1 := fun t ht => by
    refine (len_update_le r l t).trans ?_
    rw [Metric.mem_ball, Real.dist_eq] at ht
    linarith
  have upd : ∀ (t : ℝ) (g : Fin 3 → ℤ), (fun m => Function.update r l t m + gridVec B g m) ≠ 0 →
      HasDerivAt (fun t => f fun m => Function.update r l t m + gridVec B g m)
        (f' fun m => Function.update r l t m + gridVec B g m) t := by
    intro t g hne
    have h := (hpd _ hne).shift (r := Function.update r l t) (gridVec B g)
    unfold HasPd at h
    simpa using h
  have key := hasDerivAt_lattice (F := fun g t => f fun m => Function.update r l t m + gridVec B g m)
    (F' := fun g t => f' fun m => Function.update r l t m + gridVec B g m) (u := fun g => C * (1 / ‖g‖ ^ 6)) hfin.toFinset
    Metric.isOpen_ball (by rw [Real.ball_eq_Ioo]; exact isPreconnected_Ioo) (Metric.mem_ball_self (x := r l) one_pos)
    (fun g _ => upd _ g (by simpa using hr g))
    (fun g hg t ht => upd t g (ne_zero_of_len (hN _ g (hlen t ht) (hs g hg).1)))
    (fun g hg t ht => by rw [mul_one_div]; exact hC () _ g (hlen t ht) (hs g hg).2)
    (summable_norm.mul_left C) (fun t _ => (hf.fast hB () _).summable)
  unfold HasPd
  simpa using key

/-- Sum over waves. -/
theorem waves_pd {K : Mat3} (hK : Spans K) {l : Fin 3} {F F' : Vec3 → Vec3 → ℝ} (hpd : ∀ k r, HasPd l (F k) (F' k r) r)
    (hF : Quick fun y : Vec3 × Vec3 => F y.2 y.1) (hF' : Quick fun y : Vec3 × Vec3 => F' y.2 y.1) (r : Vec3) :
    HasPd l (fun r => ∑' g, F (gridVec K g) r) (∑' g, F' (gridVec K g) r) r := by
  obtain ⟨M, hM, h2⟩ := hF'.lattice hK 0
  obtain ⟨C, hC⟩ := h2 6
  have hfin := finite_small M
  have l0 : len 0 ≤ 0 := by unfold len; simp
  have z : ∀ g, (fun m => (0 : Vec3) m + gridVec K g m) = gridVec K g := fun g => by funext m; simp
  simp only [] at hC
  have upd : ∀ (t : ℝ) (g : Fin 3 → ℤ), HasDerivAt (fun t => F (gridVec K g) (Function.update r l t))
        (F' (gridVec K g) (Function.update r l t)) t := by
    intro t g
    have h := hpd (gridVec K g) (Function.update r l t)
    unfold HasPd at h
    simpa using h
  have key := hasDerivAt_lattice (F := fun g t => F (gridVec K g) (Function.update r l t))
    (F' := fun g t => F' (gridVec K g) (Function.update r l t)) (u := fun g => C * (1 / ‖g‖ ^ 6)) hfin.toFinset
    isOpen_univ isPreconnected_univ (Set.mem_univ (r l)) (fun g _ => upd _ g) (fun g _ t _ => upd t g)
    (fun g hg t _ => by
      rw [Set.Finite.mem_toFinset] at hg
      have h := hC (Function.update r l t) 0 g l0 (not_lt.mp hg)
      rw [z] at h
      rw [mul_one_div]; exact h)
    (summable_norm.mul_left C) (fun t _ => by
      have := (hF.fast hK (Function.update r l t) 0).summable
      simpa only [z] using this)
  unfold HasPd
  simpa using key

theorem waves_summable {K : Mat3} (hK : Spans K) {F : Vec3 → Vec3 → ℝ} (hF : Quick fun y : Vec3 × Vec3 => F y.2 y.1) (r : Vec3) :
    Summable fun g => F (gridVec K g) r := by
  have z : ∀ g, (fun m => (0 : Vec3) m + gridVec K g m) = gridVec K g := fun g => by funext m; simp
  have := (hF.fast hK r 0).summable
  simpa only [z] using this

theorem images_summable {B : Mat3} (hB : Spans B) {f : Vec3 → ℝ} (hf : Quick fun y : Unit × Vec3 => f y.2) (r : Vec3) :
    Summable fun g => f fun m => r m + gridVec B g m := (hf.fast hB () r).summable

/-- The sum of `f` over images is the sum of `F` over waves. -/
structure Pois (B K : Mat3) (f : Vec3 → ℝ) (F : Vec3 → Vec3 → ℝ) : Prop where
  quick : Quick fun y : Unit × Vec3 => f y.2
  quick' : Quick fun y : Vec3 × Vec3 => F y.2 y.1
  eq : ∀ r ∈ Off B, ∑' g, (f fun m => r m + gridVec B g m) = ∑' g, F (gridVec K g) r

section
variable {B K : Mat3} (hB : Spans B) (hK : Spans K)
include hB hK

theorem Pois.pd {l : Fin 3} {f f' : Vec3 → ℝ} {F F' : Vec3 → Vec3 → ℝ} (h : Pois B K f F) (hpd : ∀ y, y ≠ 0 → HasPd l f (f' y) y)
    (hpd' : ∀ k r, HasPd l (F k) (F' k r) r) (hf' : Quick fun y : Unit × Vec3 => f' y.2)
    (hF' : Quick fun y : Vec3 × Vec3 => F' y.2 y.1) : Pois B K f' F' := by
  refine ⟨hf', hF', fun r hr => ?_⟩
  have h1 := images_pd hB hpd h.quick hf' hr
  have h2 := (waves_pd hK hpd' h.quick' hF' r).congr_on (isOpen_off hB) hr h.eq
  exact h1.unique h2

theorem Pois.add {f f' : Vec3 → ℝ} {F F' : Vec3 → Vec3 → ℝ} (h : Pois B K f F) (h' : Pois B K f' F') :
    Pois B K (fun y => f y + f' y) fun k r => F k r + F' k r := by
  refine ⟨h.quick.add h'.quick, h.quick'.add h'.quick', fun r hr => ?_⟩
  rw [(images_summable hB h.quick r).tsum_add (images_summable hB h'.quick r), h.eq r hr, h'.eq r hr,
    (waves_summable hK h.quick' r).tsum_add (waves_summable hK h'.quick' r)]

omit hB hK in
theorem Pois.const_mul (c : ℝ) {f : Vec3 → ℝ} {F : Vec3 → Vec3 → ℝ} (h : Pois B K f F) :
    Pois B K (fun y => c * f y) fun k r => c * F k r := by
  refine ⟨h.quick.const_mul c, h.quick'.const_mul c, fun r hr => ?_⟩
  rw [tsum_mul_left, tsum_mul_left, h.eq r hr]

omit hB hK in
theorem Pois.congr {f f' : Vec3 → ℝ} {F F' : Vec3 → Vec3 → ℝ} (h : Pois B K f F) (e : ∀ y, f' y = f y) (e' : ∀ k r, F' k r = F k r) :
    Pois B K f' F' := by
  have h1 : f' = f := funext e
  have h2 : F' = F := funext fun k => funext fun r => e' k r
  rw [h1, h2]
  exact h

end

end SD.Ewald
