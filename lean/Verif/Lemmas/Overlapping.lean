import Verif.Lemmas.Overlap

/-!
# The overlap form is positive definite
-/

set_option autoImplicit false

namespace SD.Sph

open Spec MeasureTheory Set Metric

/-! ## Pieces of straight lines -/

theorem ae_mem_Ioo {p : ℝ → Prop} (h : ∀ᵐ t, p t) {u v : ℝ} (huv : u < v) : ∃ t, u < t ∧ t < v ∧ p t := by
  by_contra hc
  push Not at hc
  have hs : Ioo u v ⊆ {t | ¬ p t} := fun t ht hp => hc t ht.1 ht.2 hp
  have h0 : volume (Ioo u v) = 0 := measure_mono_null hs h
  rw [Real.volume_Ioo] at h0
  have := ENNReal.ofReal_eq_zero.mp h0
  linarith

/-- Straight pieces on intervals with different left ends cannot cancel. -/
theorem pieces_zero (S : Finset ℕ) (lo hi α β : ℕ → ℝ) (hlt : ∀ x ∈ S, lo x < hi x)
    (hinj : ∀ x ∈ S, ∀ y ∈ S, x ≠ y → lo x ≠ lo y)
    (h : ∀ᵐ t : ℝ, ∑ x ∈ S, (Icc (lo x) (hi x)).indicator (fun t => α x + β x * t) t = 0) :
    ∀ x ∈ S, α x = 0 ∧ β x = 0 := by
  classical
  induction S using Finset.induction_on_min_value lo with
  | empty => intro x hx; simp at hx
  | insert m S hm hmin ih =>
    have hlt' : ∀ x ∈ S, lo m < lo x := fun x hx => lt_of_le_of_ne (hmin x hx)
      (hinj m (Finset.mem_insert_self _ _) x (Finset.mem_insert_of_mem hx) (fun e => hm (e ▸ hx)))
    obtain ⟨d, hd1, hd2, hd3⟩ : ∃ d, lo m < d ∧ d ≤ hi m ∧ ∀ x ∈ S, d ≤ lo x := by
      have hm' := hlt m (Finset.mem_insert_self _ _)
      by_cases hS : S.Nonempty
      · refine ⟨min (hi m) (S.inf' hS lo), lt_min hm' ((Finset.lt_inf'_iff _).mpr hlt'), min_le_left _ _,
          fun x hx => (min_le_right _ _).trans (Finset.inf'_le _ hx)⟩
      · exact ⟨hi m, hm', le_rfl, fun x hx => absurd ⟨x, hx⟩ hS⟩
    have hval : ∀ t, lo m < t → t < d → ∑ x ∈ insert m S,
        (Icc (lo x) (hi x)).indicator (fun t => α x + β x * t) t = α m + β m * t := by
      intro t h1 h2
      rw [Finset.sum_insert hm, indicator_of_mem (show t ∈ Icc (lo m) (hi m) from ⟨h1.le, h2.le.trans hd2⟩), Finset.sum_eq_zero, add_zero]
      intro x hx
      rw [indicator_of_notMem]
      intro hmem
      exact absurd (hmem.1.trans_lt h2) (not_lt.mpr (hd3 x hx))
    obtain ⟨t1, a1, a2, a3⟩ := ae_mem_Ioo h (show lo m < (lo m + d) / 2 by linarith)
    obtain ⟨t2, b1, b2, b3⟩ := ae_mem_Ioo h (show (lo m + d) / 2 < d by linarith)
    rw [hval t1 a1 (by linarith)] at a3
    rw [hval t2 (by linarith) b2] at b3
    have hβ : β m = 0 := by
      have : β m * (t2 - t1) = 0 := by linarith
      rcases mul_eq_zero.mp this with h | h
      · exact h
      · linarith
    have hα : α m = 0 := by rw [hβ] at a3; linarith
    have := ih (fun x hx => hlt x (Finset.mem_insert_of_mem hx))
      (fun x hx y hy => hinj x (Finset.mem_insert_of_mem hx) y (Finset.mem_insert_of_mem hy)) (by
        filter_upwards [h] with t ht
        rw [Finset.sum_insert hm] at ht
        have : (Icc (lo m) (hi m)).indicator (fun t => α m + β m * t) t = 0 := by
          simp [indicator, hα, hβ]
        linarith)
    intro x hx
    rcases Finset.mem_insert.mp hx with rfl | hx
    · exact ⟨hα, hβ⟩
    · exact this x hx

/-! ## Planes are thin -/

theorem sph_plane {d : Fin 3 → ℝ} (hd : d ≠ 0) (c : ℝ) : ∀ᵐ n ∂sph, dt n d ≠ c := by
  have hs : len d ≠ 0 := by
    intro h
    apply hd
    unfold len at h
    rw [Real.sqrt_eq_zero (Finset.sum_nonneg fun i _ => sq_nonneg _)] at h
    funext i
    have := (Finset.sum_eq_zero_iff_of_nonneg fun i _ => sq_nonneg (d i)).mp h i (Finset.mem_univ i)
    exact pow_eq_zero_iff two_ne_zero |>.mp this
  have hr : dt d d = len d ^ 2 := by
    unfold len
    rw [Real.sq_sqrt (Finset.sum_nonneg fun i _ => sq_nonneg _)]
    unfold dt
    exact Finset.sum_congr rfl fun i _ => by ring
  set g : ℝ → ℝ := indicator {c} (fun _ => 1) with hg
  have hgm : Measurable g := measurable_const.indicator (measurableSet_singleton c)
  have hgb : ∀ t, |g t| ≤ 1 := by
    intro t
    simp only [hg, indicator]
    split_ifs <;> simp
  have W : Weight g := ⟨hgm, 1, hgb⟩
  have W' : Weight fun t => g (len d * t) := ⟨hgm.comp (measurable_const_mul _), 1, fun t => hgb _⟩
  have h := zon0 W W' hs hr
  have h0 : mom (fun t => g (len d * t)) 0 = 0 := by
    unfold mom
    have : ∀ᵐ t : ℝ, t ^ 0 * g (len d * t) = 0 := by
      have : ∀ᵐ t : ℝ, t ≠ c / len d := by
        simp [ae_iff]
      filter_upwards [this] with t ht
      simp only [hg, indicator, mem_singleton_iff]
      rw [if_neg, mul_zero]
      intro e
      apply ht
      rw [← e]; field_simp
    rw [intervalIntegral.integral_congr_ae (g := fun _ => 0) (by filter_upwards [this] with t ht _ using ht)]
    simp
  rw [h0] at h
  have hz := (integral_eq_zero_iff_of_nonneg (f := fun n => g (dt n d)) (fun n => by
    simp only [hg, indicator]; split_ifs <;> simp) (weight_int W d)).mp h
  filter_upwards [hz] with n hn e
  simp [hg, e] at hn

/-! ## The form -/

theorem box_overlap (a b : ℝ) (k l : ℕ) (ξ η : ℝ) : ∫ t, box a k (t - ξ) * box b l (t - η) = hat a b k l (ξ - η) := by
  unfold hat
  rw [← integral_sub_right_eq_self (fun t => box a k t * box b l (t + (ξ - η))) ξ]
  congr 1
  funext t
  congr 2
  ring

theorem box_overlap_int {a b : ℝ} (hb : 0 ≤ b) (k l : ℕ) (ξ η : ℝ) :
    Integrable fun t => box a k (t - ξ) * box b l (t - η) := by
  have := (box2_int hb a k l (ξ - η)).comp_sub_right ξ
  refine this.congr (Filter.Eventually.of_forall fun t => ?_)
  show box a k (t - ξ) * box b l (t - ξ + (ξ - η)) = _
  congr 2
  ring

section Form

variable (N : ℕ) (a : ℕ → ℝ) (X : ℕ → Fin 3 → ℝ) (cp : ℕ → Comp) (v : ℕ → ℝ)

/-- Projected density of row `i`. -/
noncomputable def den (i : ℕ) (n : Fin 3 → ℝ) (t : ℝ) : ℝ :=
  cwt (a i) (cp i) * box (a i) (cdeg (cp i)) (t - dt n (X i))

/-- All projected loads together. -/
noncomputable def tot (n : Fin 3 → ℝ) (t : ℝ) (m : Fin 3) : ℝ :=
  ∑ i ∈ Finset.range N, v i * den a X cp i n t * cfld (cp i) n m

/-- Part across the direction. -/
noncomputable def acr (n : Fin 3 → ℝ) (t : ℝ) (m : Fin 3) : ℝ :=
  ∑ i ∈ Finset.range N, v i * den a X cp i n t * (cfld (cp i) n m - n m * dt n (cfld (cp i) n))

/-- The quadratic form for one direction. -/
noncomputable def qn (n : Fin 3 → ℝ) : ℝ :=
  ∑ i ∈ Finset.range N, ∑ j ∈ Finset.range N, v i * v j * (cwt (a i) (cp i) * cwt (a j) (cp j)) *
    (kerK (cfld (cp i) n) (cfld (cp j) n) n * hat (a i) (a j) (cdeg (cp i)) (cdeg (cp j)) (dt n (fun m => X i m - X j m)))

/-- The quadratic form. -/
noncomputable def qf : ℝ :=
  ∑ i ∈ Finset.range N, ∑ j ∈ Finset.range N, v i * v j * covl (a i) (a j) (cp i) (cp j) (fun m => X i m - X j m)

variable {N a}

theorem qn_integrable (ha : ∀ i < N, 0 < a i) : Integrable (qn N a X cp v) sph := by
  unfold qn
  refine integrable_finsetSum _ fun i hi => integrable_finsetSum _ fun j hj => ?_
  exact (cont_int (kerK_cont (cfld_cont _) (cfld_cont _)) (hat_weight (ha i (Finset.mem_range.mp hi)).le
    (ha j (Finset.mem_range.mp hj)).le _ _) _).const_mul _

theorem qn_integral (ha : ∀ i < N, 0 < a i) : ∫ n, qn N a X cp v n ∂sph = qf N a X cp v := by
  unfold qn qf
  have int : ∀ i ∈ Finset.range N, ∀ j ∈ Finset.range N, Integrable (fun n => v i * v j * (cwt (a i) (cp i) * cwt (a j) (cp j)) *
    (kerK (cfld (cp i) n) (cfld (cp j) n) n * hat (a i) (a j) (cdeg (cp i)) (cdeg (cp j)) (dt n (fun m => X i m - X j m)))) sph :=
    fun i hi j hj => (cont_int (kerK_cont (cfld_cont _) (cfld_cont _)) (hat_weight (ha i (Finset.mem_range.mp hi)).le
    (ha j (Finset.mem_range.mp hj)).le _ _) _).const_mul _
  rw [integral_finsetSum _ fun i hi => integrable_finsetSum _ fun j hj => int i hi j hj]
  refine Finset.sum_congr rfl fun i hi => ?_
  rw [integral_finsetSum _ fun j hj => int i hi j hj]
  refine Finset.sum_congr rfl fun j hj => ?_
  rw [integral_const_mul, mul_assoc]
  rfl

theorem kerK_tot (n : Fin 3 → ℝ) (t : ℝ) : kerK (tot N a X cp v n t) (tot N a X cp v n t) n
    = ∑ i ∈ Finset.range N, ∑ j ∈ Finset.range N, (v i * v j * kerK (cfld (cp i) n) (cfld (cp j) n) n) *
      (den a X cp i n t * den a X cp j n t) := by
  have e1 : ∀ u, dt u (tot N a X cp v n t) = ∑ j ∈ Finset.range N, v j * den a X cp j n t * dt u (cfld (cp j) n) := by
    intro u
    simp only [dt3, tot, Finset.mul_sum, ← Finset.sum_add_distrib]
    exact Finset.sum_congr rfl fun j _ => by ring
  have e2 : ∀ u, dt (tot N a X cp v n t) u = ∑ j ∈ Finset.range N, v j * den a X cp j n t * dt (cfld (cp j) n) u := by
    intro u
    rw [dt_comm, e1]
    exact Finset.sum_congr rfl fun j _ => by rw [dt_comm]
  unfold kerK
  rw [e2, e1 n, Finset.sum_mul, ← Finset.sum_sub_distrib]
  refine Finset.sum_congr rfl fun i _ => ?_
  rw [e1, Finset.mul_sum, Finset.mul_sum, ← Finset.sum_sub_distrib]
  exact Finset.sum_congr rfl fun j _ => by ring

theorem tot_int_aux (ha : ∀ i < N, 0 < a i) (n : Fin 3 → ℝ) {i j : ℕ} (hj : j ∈ Finset.range N) :
    Integrable fun t => (v i * v j * kerK (cfld (cp i) n) (cfld (cp j) n) n) *
      (den a X cp i n t * den a X cp j n t) := by
  have := ((box_overlap_int (a := a i) (ha j (Finset.mem_range.mp hj)).le (cdeg (cp i)) (cdeg (cp j)) (dt n (X i))
    (dt n (X j))).const_mul (cwt (a i) (cp i) * cwt (a j) (cp j))).const_mul
      (v i * v j * kerK (cfld (cp i) n) (cfld (cp j) n) n)
  refine this.congr (Filter.Eventually.of_forall fun t => ?_)
  simp only [den]
  ring

theorem tot_integrable (ha : ∀ i < N, 0 < a i) (n : Fin 3 → ℝ) :
    Integrable fun t => kerK (tot N a X cp v n t) (tot N a X cp v n t) n := by
  simp only [kerK_tot]
  exact integrable_finsetSum _ fun i _ => integrable_finsetSum _ fun j hj => tot_int_aux X cp v ha n hj

theorem tot_integral (ha : ∀ i < N, 0 < a i) (n : Fin 3 → ℝ) :
    ∫ t, kerK (tot N a X cp v n t) (tot N a X cp v n t) n = qn N a X cp v n := by
  simp only [kerK_tot]
  unfold qn
  rw [integral_finsetSum _ fun i _ => integrable_finsetSum _ fun j hj => tot_int_aux X cp v ha n hj]
  refine Finset.sum_congr rfl fun i hi => ?_
  rw [integral_finsetSum _ fun j hj => tot_int_aux X cp v ha n hj]
  refine Finset.sum_congr rfl fun j hj => ?_
  rw [integral_const_mul]
  have : ∫ t, den a X cp i n t * den a X cp j n t = cwt (a i) (cp i) * cwt (a j) (cp j) *
      hat (a i) (a j) (cdeg (cp i)) (cdeg (cp j)) (dt n (fun m => X i m - X j m)) := by
    have e : dt n (fun m => X i m - X j m) = dt n (X i) - dt n (X j) := by simp only [dt3]; ring
    rw [e, ← box_overlap, ← integral_const_mul]
    congr 1
    funext t
    simp only [den]
    ring
  rw [this]
  ring

theorem kerK_acr {n : Fin 3 → ℝ} (hn : dt n n = 1) (t : ℝ) :
    kerK (tot N a X cp v n t) (tot N a X cp v n t) n = ∑ m, acr N a X cp v n t m ^ 2 := by
  have e : ∀ m, acr N a X cp v n t m = tot N a X cp v n t m - n m * dt n (tot N a X cp v n t) := by
    intro m
    have : dt n (tot N a X cp v n t) = ∑ j ∈ Finset.range N, v j * den a X cp j n t * dt n (cfld (cp j) n) := by
      simp only [dt3, tot, Finset.mul_sum, ← Finset.sum_add_distrib]
      exact Finset.sum_congr rfl fun j _ => by ring
    rw [this, tot, Finset.mul_sum, ← Finset.sum_sub_distrib]
    exact Finset.sum_congr rfl fun j _ => by ring
  simp only [e, Fin.sum_univ_three]
  unfold kerK
  rw [dt3] at hn
  generalize tot N a X cp v n t = w
  have ew : dt n w = n 0 * w 0 + n 1 * w 1 + n 2 * w 2 := dt3 n w
  rw [dt3 w w]
  linear_combination (-(dt n w) ^ 2) * hn + 2 * dt n w * (- ew)

theorem qn_nonneg (ha : ∀ i < N, 0 < a i) : ∀ᵐ n ∂sph, 0 ≤ qn N a X cp v n := by
  filter_upwards [dt_self_ae] with n hn
  rw [← tot_integral X cp v ha]
  refine integral_nonneg fun t => ?_
  show 0 ≤ kerK _ _ _
  rw [kerK_acr X cp v hn]
  exact Finset.sum_nonneg fun m _ => sq_nonneg _

/-- The form is never negative. -/
theorem qf_nonneg (ha : ∀ i < N, 0 < a i) : 0 ≤ qf N a X cp v := by
  rw [← qn_integral X cp v ha]
  exact integral_nonneg_of_ae (qn_nonneg X cp v ha)

/-- If it is zero, then nothing is left across almost any direction. -/
theorem qf_zero (ha : ∀ i < N, 0 < a i) :
    qf N a X cp v = 0 ↔ ∀ᵐ n ∂sph, ∀ᵐ t, ∀ m, acr N a X cp v n t m = 0 := by
  rw [← qn_integral X cp v ha, integral_eq_zero_iff_of_nonneg_ae (qn_nonneg X cp v ha) (qn_integrable X cp v ha)]
  have key : ∀ n, dt n n = 1 → (qn N a X cp v n = 0 ↔ ∀ᵐ t, ∀ m, acr N a X cp v n t m = 0) := by
    intro n hn
    rw [← tot_integral X cp v ha, integral_eq_zero_iff_of_nonneg (fun t => by
      show 0 ≤ kerK _ _ _
      rw [kerK_acr X cp v hn]
      exact Finset.sum_nonneg fun m _ => sq_nonneg _) (tot_integrable X cp v ha n)]
    refine Filter.eventually_congr (Filter.Eventually.of_forall fun t => ?_)
    show kerK _ _ _ = 0 ↔ _
    rw [kerK_acr X cp v hn, Finset.sum_eq_zero_iff_of_nonneg fun m _ => sq_nonneg _]
    simp
  constructor
  · intro h
    filter_upwards [h, dt_self_ae] with n h1 h2
    exact (key n h2).mp h1
  · intro h
    filter_upwards [h, dt_self_ae] with n h1 h2
    exact (key n h2).mpr h1

end Form

/-! ## Strictness -/

/-- The part of the loads on one bead. -/
noncomputable def only (bd : ℕ → ℕ) (v : ℕ → ℝ) (x : ℕ) (i : ℕ) : ℝ := if bd i = x then v i else 0

theorem box_line {c : Comp} {a ξ t : ℝ} : box a (cdeg c) (t - ξ)
    = (Icc (ξ - a) (ξ + a)).indicator (fun t => (if cdeg c = 0 then 1 else -ξ) + (if cdeg c = 0 then 0 else 1) * t) t := by
  have hm : t - ξ ∈ Icc (-a) a ↔ t ∈ Icc (ξ - a) (ξ + a) := by
    simp only [mem_Icc]
    constructor <;> rintro ⟨h1, h2⟩ <;> constructor <;> linarith
  unfold box indicator
  by_cases h : t ∈ Icc (ξ - a) (ξ + a)
  · rw [if_pos h, if_pos (hm.mpr h)]
    cases c <;> simp [cdeg]
    all_goals ring
  · rw [if_neg h, if_neg (fun h' => h (hm.mp h'))]

/-- If nothing is left of all loads, nothing is left of the loads on each bead. -/
theorem each_zero {N : ℕ} (bd : ℕ → ℕ) (A : ℕ → ℝ) (Y : ℕ → Fin 3 → ℝ) (cp : ℕ → Comp) (v : ℕ → ℝ)
    (hA : ∀ i < N, 0 < A (bd i)) (n : Fin 3 → ℝ)
    (hdist : ∀ i < N, ∀ j < N, bd i ≠ bd j → dt n (Y (bd i)) - A (bd i) ≠ dt n (Y (bd j)) - A (bd j))
    (h : ∀ᵐ t, ∀ m, acr N (fun i => A (bd i)) (fun i => Y (bd i)) cp v n t m = 0) (x : ℕ) (t : ℝ) (m : Fin 3) :
    acr N (fun i => A (bd i)) (fun i => Y (bd i)) cp (only bd v x) n t m = 0 := by
  classical
  set S := (Finset.range N).image bd with hS
  set w : ℕ → ℝ := fun i => v i * cwt (A (bd i)) (cp i) * (cfld (cp i) n m - n m * dt n (cfld (cp i) n)) with hw
  set α : ℕ → ℝ := fun x => ∑ i ∈ (Finset.range N).filter (fun i => bd i = x),
    w i * (if cdeg (cp i) = 0 then 1 else -dt n (Y x)) with hα
  set β : ℕ → ℝ := fun x => ∑ i ∈ (Finset.range N).filter (fun i => bd i = x),
    w i * (if cdeg (cp i) = 0 then 0 else 1) with hβ
  have term : ∀ x t, ∑ i ∈ (Finset.range N).filter (fun i => bd i = x), v i * den (fun i => A (bd i)) (fun i => Y (bd i)) cp i n t
      * (cfld (cp i) n m - n m * dt n (cfld (cp i) n))
      = (Icc (dt n (Y x) - A x) (dt n (Y x) + A x)).indicator (fun t => α x + β x * t) t := by
    intro x t
    have : ∀ i ∈ (Finset.range N).filter (fun i => bd i = x),
        v i * den (fun i => A (bd i)) (fun i => Y (bd i)) cp i n t * (cfld (cp i) n m - n m * dt n (cfld (cp i) n))
        = (Icc (dt n (Y x) - A x) (dt n (Y x) + A x)).indicator (fun t => w i * (if cdeg (cp i) = 0 then 1 else -dt n (Y x))
          + w i * (if cdeg (cp i) = 0 then 0 else 1) * t) t := by
      intro i hi
      have hx := (Finset.mem_filter.mp hi).2
      simp only [den, hw, hx]
      rw [box_line]
      simp only [indicator]
      split_ifs <;> ring
    rw [Finset.sum_congr rfl this]
    simp only [indicator, hα, hβ]
    split_ifs
    · rw [Finset.sum_add_distrib, Finset.sum_mul]
    · simp
  have hmem : ∀ y ∈ S, ∃ i < N, bd i = y := by
    intro y hy
    obtain ⟨i, hi, e⟩ := Finset.mem_image.mp hy
    exact ⟨i, Finset.mem_range.mp hi, e⟩
  have hz := pieces_zero S (fun x => dt n (Y x) - A x) (fun x => dt n (Y x) + A x) α β
    (fun y hy => by
      obtain ⟨i, hi, rfl⟩ := hmem y hy
      have := hA i hi
      linarith)
    (fun y hy z hz hne => by
      obtain ⟨i, hi, rfl⟩ := hmem y hy
      obtain ⟨j, hj, rfl⟩ := hmem z hz
      exact hdist i hi j hj hne)
    (by
      filter_upwards [h] with t ht
      rw [← ht m]
      unfold acr
      rw [← Finset.sum_fiberwise_of_maps_to (s := Finset.range N) (t := S) (g := bd)
        (fun i hi => Finset.mem_image_of_mem bd hi)]
      exact Finset.sum_congr rfl fun y _ => (term y t).symm)
  have e : acr N (fun i => A (bd i)) (fun i => Y (bd i)) cp (only bd v x) n t m
      = ∑ i ∈ (Finset.range N).filter (fun i => bd i = x), v i * den (fun i => A (bd i)) (fun i => Y (bd i)) cp i n t
      * (cfld (cp i) n m - n m * dt n (cfld (cp i) n)) := by
    unfold acr only
    rw [Finset.sum_filter]
    refine Finset.sum_congr rfl fun i _ => ?_
    split_ifs <;> ring
  rw [e]
  by_cases hx : x ∈ S
  · rw [term, (hz x hx).1, (hz x hx).2]
    simp [indicator]
  · refine Finset.sum_eq_zero fun i hi => ?_
    obtain ⟨h1, h2⟩ := Finset.mem_filter.mp hi
    exact absurd (h2 ▸ Finset.mem_image_of_mem bd h1) hx

theorem selfMob_diag {mu a : ℝ} (hmu : 0 < mu) (ha : 0 < a) (c : Comp) : 0 < selfMob mu a c c := by
  have := Real.pi_pos
  cases c <;> simp only [selfMob, if_true] <;> positivity

theorem selfMob_off {mu a : ℝ} {c1 c2 : Comp} (h : c1 ≠ c2) : selfMob mu a c1 c2 = 0 := by
  cases c1 <;> cases c2 <;> simp only [selfMob]
  all_goals exact if_neg fun e => h (by rw [e])

/-- **The overlap form is positive definite** for beads with different centres. -/
theorem qf_pos {N : ℕ} (bd : ℕ → ℕ) (A : ℕ → ℝ) (Y : ℕ → Fin 3 → ℝ) (cp : ℕ → Comp) (v : ℕ → ℝ)
    (hA : ∀ i < N, 0 < A (bd i)) (hY : ∀ i < N, ∀ j < N, bd i ≠ bd j → Y (bd i) ≠ Y (bd j))
    (hinj : ∀ i < N, ∀ j < N, bd i = bd j → cp i = cp j → i = j) (hv : ∃ i < N, v i ≠ 0) :
    0 < qf N (fun i => A (bd i)) (fun i => Y (bd i)) cp v := by
  classical
  refine lt_of_le_of_ne (qf_nonneg _ _ _ hA) fun h0 => ?_
  obtain ⟨k, hk, hne⟩ := hv
  have h1 := (qf_zero _ _ _ hA).mp h0.symm
  -- almost every direction separates the left ends
  have hd : ∀ᵐ n ∂sph, ∀ i ∈ Finset.range N, ∀ j ∈ Finset.range N, bd i ≠ bd j →
      dt n (Y (bd i)) - A (bd i) ≠ dt n (Y (bd j)) - A (bd j) := by
    rw [Filter.eventually_all_finset]
    intro i hi
    rw [Filter.eventually_all_finset]
    intro j hj
    by_cases hb : bd i = bd j
    · exact Filter.Eventually.of_forall fun n h => absurd hb h
    · have hne : (fun m => Y (bd i) m - Y (bd j) m) ≠ 0 := by
        intro e
        apply hY i (Finset.mem_range.mp hi) j (Finset.mem_range.mp hj) hb
        funext m
        have := congrFun e m
        simp only [Pi.zero_apply] at this
        linarith
      filter_upwards [sph_plane hne (A (bd i) - A (bd j))] with n hn _ e
      apply hn
      have : dt n (fun m => Y (bd i) m - Y (bd j) m) = dt n (Y (bd i)) - dt n (Y (bd j)) := by simp only [dt3]; ring
      rw [this]
      linarith
  -- so the loads on the bead of row k give nothing
  have h2 : qf N (fun i => A (bd i)) (fun i => Y (bd i)) cp (only bd v (bd k)) = 0 := by
    rw [qf_zero _ _ _ hA]
    filter_upwards [h1, hd] with n hn hdn
    refine Filter.Eventually.of_forall fun t m => ?_
    exact each_zero bd A Y cp v hA n (fun i hi j hj => hdn i (Finset.mem_range.mpr hi) j (Finset.mem_range.mpr hj)) hn _ _ _
  -- but they give the sum of squares
  have hp := Real.pi_pos
  have h3 : qf N (fun i => A (bd i)) (fun i => Y (bd i)) cp (only bd v (bd k))
      = ∑ i ∈ Finset.range N, 8 * Real.pi ^ 2 * 1 * (only bd v (bd k) i ^ 2 * selfMob 1 (A (bd i)) (cp i) (cp i)) := by
    unfold qf
    refine Finset.sum_congr rfl fun i hi => ?_
    rw [← Finset.add_sum_erase _ _ hi, Finset.sum_eq_zero, add_zero]
    · have e0 : (fun m => Y (bd i) m - Y (bd i) m) = 0 := by funext m; simp
      rw [e0, ← self_overlap one_pos (hA i (Finset.mem_range.mp hi))]
      ring
    · intro j hj
      have hj' := Finset.mem_of_mem_erase hj
      by_cases hb : bd i = bd k ∧ bd j = bd k
      · have hbij : bd i = bd j := hb.1.trans hb.2.symm
        have hc : cp i ≠ cp j := fun e => Finset.ne_of_mem_erase hj
          (hinj i (Finset.mem_range.mp hi) j (Finset.mem_range.mp hj') hbij e).symm
        have e0 : (fun m => Y (bd j) m - Y (bd j) m) = 0 := by funext m; simp
        dsimp only
        rw [hbij, e0, ← self_overlap one_pos (hA j (Finset.mem_range.mp hj')), selfMob_off hc]
        ring
      · have : only bd v (bd k) i * only bd v (bd k) j = 0 := by
          unfold only
          by_cases h1 : bd i = bd k
          · rw [if_neg (fun h2 => hb ⟨h1, h2⟩), mul_zero]
          · rw [if_neg h1, zero_mul]
        rw [this, zero_mul]
  have h4 : 0 < qf N (fun i => A (bd i)) (fun i => Y (bd i)) cp (only bd v (bd k)) := by
    rw [h3]
    refine Finset.sum_pos' (fun i hi => ?_) ⟨k, Finset.mem_range.mpr hk, ?_⟩
    · have := selfMob_diag one_pos (hA i (Finset.mem_range.mp hi)) (cp i)
      positivity
    · have := selfMob_diag one_pos (hA k hk) (cp k)
      have : 0 < only bd v (bd k) k ^ 2 := by
        unfold only
        rw [if_pos rfl]
        positivity
      positivity
  exact absurd h2 h4.ne'

end SD.Sph
