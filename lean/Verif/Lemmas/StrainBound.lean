import Verif.Lemmas.Overlapping

/-!
# The far field of stresslets is bounded

For stresslets alone the overlap form is at most three times the sum of the squares over the cubes of the radii,
however many spheres there are and however they are arranged.
-/

set_option autoImplicit false

namespace SD.Sph

open Spec MeasureTheory Set Metric

/-- The across part of a symmetric matrix has at most half of its squares. -/
theorem across_half {n : Fin 3 → ℝ} (hn : dt n n = 1) (W : Fin 3 → Fin 3 → ℝ) (hW : ∀ i j, W i j = W j i) :
    kerK (fun i => dt (W i) n) (fun i => dt (W i) n) n ≤ 1 / 2 * ∑ i, ∑ j, W i j ^ 2 := by
  set u : Fin 3 → ℝ := fun i => dt (W i) n with hu
  set c : Fin 3 → ℝ := fun i => u i - dt n u * n i with hc
  have nn : n 0 * n 0 + n 1 * n 1 + n 2 * n 2 = 1 := by rw [← dt3]; exact hn
  have h : 0 ≤ ∑ i, ∑ j, (W i j - n i * c j - c i * n j) ^ 2 :=
    Finset.sum_nonneg fun i _ => Finset.sum_nonneg fun j _ => sq_nonneg _
  have nc : n 0 * c 0 + n 1 * c 1 + n 2 * c 2 = 0 := by
    have e : n 0 * c 0 + n 1 * c 1 + n 2 * c 2 = dt n u - dt n u * (n 0 * n 0 + n 1 * n 1 + n 2 * n 2) := by
      simp only [hc]; rw [dt3 n u]; ring
    rw [e, nn]; ring
  have cc : c 0 * c 0 + c 1 * c 1 + c 2 * c 2 = kerK u u n := by
    have e : c 0 * c 0 + c 1 * c 1 + c 2 * c 2 = dt u u - 2 * dt n u * dt n u
        + dt n u * dt n u * (n 0 * n 0 + n 1 * n 1 + n 2 * n 2) := by
      simp only [hc]; rw [dt3 u u]
      have := dt3 n u
      linear_combination (2 * dt n u) * this
    rw [e, nn]; unfold kerK; ring
  have uc : u 0 * c 0 + u 1 * c 1 + u 2 * c 2 = kerK u u n := by
    have e : u 0 * c 0 + u 1 * c 1 + u 2 * c 2 = dt u u - dt n u * dt n u := by
      simp only [hc]; rw [dt3 u u]
      have := dt3 n u
      linear_combination (dt n u) * this
    rw [e]; rfl
  have u0 : u 0 = W 0 0 * n 0 + W 0 1 * n 1 + W 0 2 * n 2 := dt3 _ _
  have u1 : u 1 = W 1 0 * n 0 + W 1 1 * n 1 + W 1 2 * n 2 := dt3 _ _
  have u2 : u 2 = W 2 0 * n 0 + W 2 1 * n 1 + W 2 2 * n 2 := dt3 _ _
  simp only [Fin.sum_univ_three] at h ⊢
  rw [hW 1 0, hW 2 0, hW 2 1] at *
  rw [u0, u1, u2] at uc
  generalize kerK u u n = K at *
  generalize c 0 = c0 at *
  generalize c 1 = c1 at *
  generalize c 2 = c2 at *
  generalize n 0 = n0 at *
  generalize n 1 = n1 at *
  generalize n 2 = n2 at *
  have key : (W 0 0 - n0 * c0 - c0 * n0) ^ 2 + (W 0 1 - n0 * c1 - c0 * n1) ^ 2 + (W 0 2 - n0 * c2 - c0 * n2) ^ 2
      + ((W 0 1 - n1 * c0 - c1 * n0) ^ 2 + (W 1 1 - n1 * c1 - c1 * n1) ^ 2 + (W 1 2 - n1 * c2 - c1 * n2) ^ 2)
      + ((W 0 2 - n2 * c0 - c2 * n0) ^ 2 + (W 1 2 - n2 * c1 - c2 * n1) ^ 2 + (W 2 2 - n2 * c2 - c2 * n2) ^ 2)
      = (W 0 0 ^ 2 + W 0 1 ^ 2 + W 0 2 ^ 2 + (W 0 1 ^ 2 + W 1 1 ^ 2 + W 1 2 ^ 2) + (W 0 2 ^ 2 + W 1 2 ^ 2 + W 2 2 ^ 2))
        - 4 * ((W 0 0 * n0 + W 0 1 * n1 + W 0 2 * n2) * c0 + (W 0 1 * n0 + W 1 1 * n1 + W 1 2 * n2) * c1
          + (W 0 2 * n0 + W 1 2 * n1 + W 2 2 * n2) * c2)
        + 2 * (n0 * n0 + n1 * n1 + n2 * n2) * (c0 * c0 + c1 * c1 + c2 * c2) + 2 * (n0 * c0 + n1 * c1 + n2 * c2) ^ 2 := by
    ring
  rw [key, uc, nn, cc, nc] at h
  linarith

/-- The basis matrix of a stresslet component. -/
noncomputable def cmat : Comp → Fin 3 → Fin 3 → ℝ
  | .s p => basis5 p
  | _ => 0

theorem cmat_symm (c : Comp) (i j : Fin 3) : cmat c i j = cmat c j i := by
  cases c <;> first | rfl | exact (basis5_symm _).1 _ _

theorem cfld_mat {c : Comp} (h : ∃ p, c = .s p) (n : Fin 3 → ℝ) (i : Fin 3) : cfld c n i = dt (cmat c i) n := by
  obtain ⟨p, rfl⟩ := h
  have s := (basis5_symm p).1
  simp only [cfld, cmat, lfld]
  rw [dt3]
  simp only [Fin.sum_univ_three]
  fin_cases i <;> simp [dlt] <;> simp only [s 1 0, s 2 0, s 2 1] <;> ring


section Form

variable {N : ℕ} (a : ℕ → ℝ) (X : ℕ → Fin 3 → ℝ) (cp : ℕ → Comp) (v : ℕ → ℝ)

/-- All projected stresslets together. -/
noncomputable def mtot (N : ℕ) (n : Fin 3 → ℝ) (t : ℝ) (k l : Fin 3) : ℝ :=
  ∑ i ∈ Finset.range N, v i * den a X cp i n t * cmat (cp i) k l

/-- Contraction of two basis matrices. -/
noncomputable def cdot (c1 c2 : Comp) : ℝ := ∑ k, ∑ l, cmat c1 k l * cmat c2 k l

theorem tot_mat (hs : ∀ i < N, v i ≠ 0 → ∃ p, cp i = .s p) (n : Fin 3 → ℝ) (t : ℝ) (m : Fin 3) :
    tot N a X cp v n t m = dt (mtot a X cp v N n t m) n := by
  have e : dt (mtot a X cp v N n t m) n = ∑ i ∈ Finset.range N, v i * den a X cp i n t * dt (cmat (cp i) m) n := by
    simp only [dt3, mtot, Finset.sum_mul, ← Finset.sum_add_distrib]
    exact Finset.sum_congr rfl fun j _ => by ring
  rw [e, tot]
  refine Finset.sum_congr rfl fun i hi => ?_
  by_cases h : v i = 0
  · simp [h]
  · rw [cfld_mat (hs i (Finset.mem_range.mp hi) h)]

theorem mtot_sq (n : Fin 3 → ℝ) (t : ℝ) : ∑ k, ∑ l, mtot a X cp v N n t k l ^ 2
    = ∑ i ∈ Finset.range N, ∑ j ∈ Finset.range N, v i * v j * cdot (cp i) (cp j)
      * (den a X cp i n t * den a X cp j n t) := by
  have e : ∀ k l, mtot a X cp v N n t k l ^ 2 = ∑ i ∈ Finset.range N, ∑ j ∈ Finset.range N,
      v i * v j * (cmat (cp i) k l * cmat (cp j) k l) * (den a X cp i n t * den a X cp j n t) := by
    intro k l
    rw [sq, mtot, Finset.sum_mul_sum]
    exact Finset.sum_congr rfl fun i _ => Finset.sum_congr rfl fun j _ => by ring
  simp only [e, Fin.sum_univ_three, ← Finset.sum_add_distrib]
  refine Finset.sum_congr rfl fun i _ => Finset.sum_congr rfl fun j _ => ?_
  simp only [cdot, Fin.sum_univ_three]
  ring

variable {a}

theorem den_int (ha : ∀ i < N, 0 < a i) (n : Fin 3 → ℝ) (i : ℕ) {j : ℕ} (hj : j < N) :
    Integrable fun t => den a X cp i n t * den a X cp j n t := by
  have := (box_overlap_int (a := a i) (ha j hj).le (cdeg (cp i)) (cdeg (cp j)) (dt n (X i))
    (dt n (X j))).const_mul (cwt (a i) (cp i) * cwt (a j) (cp j))
  refine this.congr (Filter.Eventually.of_forall fun t => ?_)
  simp only [den]
  ring

theorem den_integral (n : Fin 3 → ℝ) (i j : ℕ) :
    ∫ t, den a X cp i n t * den a X cp j n t = cwt (a i) (cp i) * cwt (a j) (cp j) *
      hat (a i) (a j) (cdeg (cp i)) (cdeg (cp j)) (dt n (fun m => X i m - X j m)) := by
  have e : dt n (fun m => X i m - X j m) = dt n (X i) - dt n (X j) := by simp only [dt3]; ring
  rw [e, ← box_overlap, ← integral_const_mul]
  congr 1
  funext t
  simp only [den]
  ring

/-- One direction. -/
theorem qn_le (ha : ∀ i < N, 0 < a i) (hs : ∀ i < N, v i ≠ 0 → ∃ p, cp i = .s p) {n : Fin 3 → ℝ} (hn : dt n n = 1) :
    qn N a X cp v n ≤ 1 / 2 * ∑ i ∈ Finset.range N, ∑ j ∈ Finset.range N, v i * v j * cdot (cp i) (cp j)
      * (cwt (a i) (cp i) * cwt (a j) (cp j) *
        hat (a i) (a j) (cdeg (cp i)) (cdeg (cp j)) (dt n (fun m => X i m - X j m))) := by
  have int : ∀ i ∈ Finset.range N, ∀ j ∈ Finset.range N, Integrable fun t => v i * v j * cdot (cp i) (cp j)
      * (den a X cp i n t * den a X cp j n t) :=
    fun i _ j hj => (den_int X cp ha n i (Finset.mem_range.mp hj)).const_mul _
  have e : ∫ t, ∑ k, ∑ l, mtot a X cp v N n t k l ^ 2 = ∑ i ∈ Finset.range N, ∑ j ∈ Finset.range N,
      v i * v j * cdot (cp i) (cp j) * (cwt (a i) (cp i) * cwt (a j) (cp j) *
        hat (a i) (a j) (cdeg (cp i)) (cdeg (cp j)) (dt n (fun m => X i m - X j m))) := by
    simp only [mtot_sq]
    rw [integral_finsetSum _ fun i hi => integrable_finsetSum _ fun j hj => int i hi j hj]
    refine Finset.sum_congr rfl fun i hi => ?_
    rw [integral_finsetSum _ fun j hj => int i hi j hj]
    exact Finset.sum_congr rfl fun j _ => by rw [integral_const_mul, den_integral]
  rw [← e, ← tot_integral X cp v ha, ← integral_const_mul]
  refine integral_mono (tot_integrable X cp v ha n) ?_ fun t => ?_
  · simp only [mtot_sq]
    exact (integrable_finsetSum _ fun i hi => integrable_finsetSum _ fun j hj => int i hi j hj).const_mul _
  · have et : tot N a X cp v n t = fun m => dt (mtot a X cp v N n t m) n := funext fun m => tot_mat a X cp v hs n t m
    dsimp only
    rw [et]
    refine across_half hn _ fun k l => ?_
    simp only [mtot]
    exact Finset.sum_congr rfl fun i _ => by rw [cmat_symm]

end Form

/-- **The bound.** -/
theorem qf_strain {N : ℕ} (bd : ℕ → ℕ) (A : ℕ → ℝ) (Y : ℕ → Fin 3 → ℝ) (cp : ℕ → Comp) (v : ℕ → ℝ)
    (hA : ∀ i < N, 0 < A (bd i))
    (hY : ∀ i < N, ∀ j < N, bd i ≠ bd j → A (bd i) + A (bd j) ≤ len fun m => Y (bd i) m - Y (bd j) m)
    (hinj : ∀ i < N, ∀ j < N, bd i = bd j → cp i = cp j → i = j)
    (hs : ∀ i < N, v i ≠ 0 → ∃ p, cp i = .s p) :
    qf N (fun i => A (bd i)) (fun i => Y (bd i)) cp v ≤ 3 * Real.pi * ∑ i ∈ Finset.range N, v i ^ 2 / A (bd i) ^ 3 := by
  set a : ℕ → ℝ := fun i => A (bd i) with ha'
  set X : ℕ → Fin 3 → ℝ := fun i => Y (bd i) with hX
  have ha : ∀ i < N, 0 < a i := hA
  have wt : ∀ i ∈ Finset.range N, ∀ j ∈ Finset.range N, Integrable (fun n => v i * v j * cdot (cp i) (cp j)
      * (cwt (a i) (cp i) * cwt (a j) (cp j) *
        hat (a i) (a j) (cdeg (cp i)) (cdeg (cp j)) (dt n (fun m => X i m - X j m)))) sph :=
    fun i hi j hj => ((weight_int (hat_weight (ha i (Finset.mem_range.mp hi)).le (ha j (Finset.mem_range.mp hj)).le _ _)
      _).const_mul _).const_mul _
  have h1 : qf N a X cp v ≤ ∫ n, 1 / 2 * ∑ i ∈ Finset.range N, ∑ j ∈ Finset.range N, v i * v j * cdot (cp i) (cp j)
      * (cwt (a i) (cp i) * cwt (a j) (cp j) *
        hat (a i) (a j) (cdeg (cp i)) (cdeg (cp j)) (dt n (fun m => X i m - X j m))) ∂sph := by
    rw [← qn_integral X cp v ha]
    refine integral_mono_ae (qn_integrable X cp v ha)
      ((integrable_finsetSum _ fun i hi => integrable_finsetSum _ fun j hj => wt i hi j hj).const_mul _) ?_
    filter_upwards [dt_self_ae] with n hn
    exact qn_le X cp v ha hs hn
  refine h1.trans (le_of_eq ?_)
  rw [integral_const_mul, integral_finsetSum _ fun i hi => integrable_finsetSum _ fun j hj => wt i hi j hj]
  have term : ∀ i ∈ Finset.range N, ∫ n, ∑ j ∈ Finset.range N, v i * v j * cdot (cp i) (cp j)
      * (cwt (a i) (cp i) * cwt (a j) (cp j) *
        hat (a i) (a j) (cdeg (cp i)) (cdeg (cp j)) (dt n (fun m => X i m - X j m))) ∂sph
      = 6 * Real.pi * (v i ^ 2 / A (bd i) ^ 3) := by
    intro i hi
    have hi' := Finset.mem_range.mp hi
    rw [integral_finsetSum _ fun j hj => wt i hi j hj]
    by_cases hv : v i = 0
    · rw [Finset.sum_eq_zero fun j _ => by simp [hv]]; simp [hv]
    obtain ⟨p, hp⟩ := hs i hi' hv
    have hai := ha i hi'
    rw [Finset.sum_eq_single_of_mem i hi]
    · have e0 : (fun m => X i m - X i m) = 0 := by funext m; simp
      simp only [e0, dt_zero, hp, cdeg, (hat_self hai).2.2.2, cwt]
      rw [int_c0]
      have : cdot (.s p) (.s p) = 1 := by
        have := basis5_dot p p
        rwa [if_pos rfl] at this
      rw [this]
      have : A (bd i) = a i := rfl
      rw [this]
      field_simp
      ring
    · intro j hj hji
      have hj' := Finset.mem_range.mp hj
      by_cases hvj : v j = 0
      · simp [hvj]
      obtain ⟨q, hq⟩ := hs j hj' hvj
      by_cases hb : bd i = bd j
      · have : cdot (cp i) (cp j) = 0 := by
          have h := basis5_dot p q
          rw [hp, hq]
          refine h.trans (if_neg fun e => hji ?_)
          exact hinj j hj' i hi' hb.symm (by rw [hp, hq, e])
        simp [this]
      · have hl := hY i hi' j hj' hb
        have haj := ha j hj'
        rw [integral_const_mul, integral_const_mul]
        set r : Fin 3 → ℝ := fun m => X i m - X j m with hr
        have hlr : a i + a j ≤ len r := hl
        have hpos : 0 < len r := by linarith
        have hrr : dt r r = len r ^ 2 := by
          unfold len
          rw [Real.sq_sqrt (Finset.sum_nonneg fun i _ => sq_nonneg _)]
          unfold dt
          exact Finset.sum_congr rfl fun i _ => by ring
        have : ∫ n, hat (a i) (a j) (cdeg (cp i)) (cdeg (cp j)) (dt n r) ∂sph = 0 := by
          rw [hp, hq]
          rw [zon0 (hat_weight hai.le haj.le _ _) (hat_weight' hai.le haj.le _ _ _) hpos.ne' hrr]
          exact (mom_11_0 hai haj hlr).trans (by ring)
        rw [this]; ring
  rw [Finset.sum_congr rfl term, ← Finset.mul_sum]
  ring

end SD.Sph
