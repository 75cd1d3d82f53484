import Verif.Lemmas.PairIntegral

/-!
# Every entry of the far-field mobility as an overlap integral
-/

set_option autoImplicit false

namespace SD.Sph

open Spec MeasureTheory Set Metric

/-- The response of any two kinds of load. -/
theorem ovl_all {a b : ℝ} {r : Fin 3 → ℝ} (ha : 0 < a) (hb : 0 < b) (hr : a + b ≤ len r) (l1 l2 : Load) :
    Real.pi * response a b l1 l2 r = ovl a b l1 l2 r := by
  have hl : len (-r) = len r := by simp [len]
  have hr' : b + a ≤ len (-r) := by rw [hl]; linarith
  have hne := (len_facts ha hb hr).2.2
  cases l1 <;> cases l2
  · exact ovl_FF ha hb hr _ _
  · exact ovl_FT ha hb hr _ _
  · exact ovl_FS ha hb hr _ _ _
  · rw [resp_recip hne, ovl_symm]; exact ovl_FT hb ha hr' _ _
  · exact ovl_TT ha hb hr _ _
  · exact ovl_TS ha hb hr _ _ _
  · rw [resp_recip hne, ovl_symm]; exact ovl_FS hb ha hr' _ _ _
  · rw [resp_recip hne, ovl_symm]; exact ovl_TS hb ha hr' _ _ _
  · exact ovl_SS ha hb hr _ _ _ _

/-- Projected load of a component. -/
noncomputable def cfld : Comp → (Fin 3 → ℝ) → Fin 3 → ℝ
  | .f j, n => lfld (.force j) n
  | .t j, n => lfld (.torque j) n
  | .s p, n => fun i => ∑ j, ∑ k, basis5 p j k * lfld (.stress j k) n i

def cdeg : Comp → ℕ
  | .f _ => 0
  | .t _ => 1
  | .s _ => 1

noncomputable def cwt (a : ℝ) : Comp → ℝ
  | .f _ => 1 / (2 * a)
  | .t _ => 3 / (4 * a ^ 3)
  | .s _ => 3 / (2 * a ^ 3)

theorem lfld_cont (l : Load) : Continuous (lfld l) := by
  cases l
  · exact continuous_const
  all_goals
    refine continuous_pi fun i => ?_
    simp only [lfld]
    fun_prop

theorem cfld_cont (c : Comp) : Continuous (cfld c) := by
  rcases c with i | i | p
  · exact lfld_cont (.force i)
  · exact lfld_cont (.torque i)
  · refine continuous_pi fun i => ?_
    simp only [cfld]
    have := fun l => (continuous_apply i).comp (lfld_cont l)
    refine continuous_finsetSum _ fun j _ => continuous_finsetSum _ fun k _ => ?_
    exact continuous_const.mul (this (.stress j k))

theorem kerK_cont {U V : (Fin 3 → ℝ) → Fin 3 → ℝ} (hU : Continuous U) (hV : Continuous V) :
    Continuous fun n => kerK (U n) (V n) n := by
  unfold kerK dt
  fun_prop

theorem cont_int {F : (Fin 3 → ℝ) → ℝ} (hF : Continuous F) {g : ℝ → ℝ} (hg : Weight g) (r : Fin 3 → ℝ) :
    Integrable (fun n => F n * g (dt n r)) sph := by
  obtain ⟨C, hC⟩ := (isCompact_Icc (a := fun _ : Fin 3 => (-1 : ℝ)) (b := fun _ => 1)).exists_bound_of_continuousOn
    hF.continuousOn
  refine (weight_int hg r).bdd_mul (c := C) hF.aestronglyMeasurable ?_
  filter_upwards [sph_bound] with n hn
  exact hC n ⟨fun i => (hn i).1, fun i => (hn i).2⟩

/-- The overlap integral of two fields. -/
noncomputable def go (a b : ℝ) (k l : ℕ) (U V : (Fin 3 → ℝ) → Fin 3 → ℝ) (r : Fin 3 → ℝ) : ℝ :=
  ∫ n, kerK (U n) (V n) n * hat a b k l (dt n r) ∂sph

theorem kerK_sum (u n : Fin 3 → ℝ) (c : Fin 3 → Fin 3 → ℝ) (v : Fin 3 → Fin 3 → Fin 3 → ℝ) :
    kerK u (fun i => ∑ j, ∑ k, c j k * v j k i) n = ∑ j, ∑ k, c j k * kerK u (v j k) n := by
  simp only [kerK, dt3, Fin.sum_univ_three]
  ring

theorem go_sum {a b : ℝ} (ha : 0 ≤ a) (hb : 0 ≤ b) (k l : ℕ) {U : (Fin 3 → ℝ) → Fin 3 → ℝ} (hU : Continuous U)
    (c : Fin 3 → Fin 3 → ℝ) {V : Fin 3 → Fin 3 → (Fin 3 → ℝ) → Fin 3 → ℝ} (hV : ∀ i j, Continuous (V i j))
    (r : Fin 3 → ℝ) :
    go a b k l U (fun n i => ∑ p, ∑ q, c p q * V p q n i) r = ∑ p, ∑ q, c p q * go a b k l U (V p q) r := by
  unfold go
  have i := fun p q => (cont_int (kerK_cont hU (hV p q)) (hat_weight ha hb k l) r).const_mul (c p q)
  simp only [kerK_sum, Finset.sum_mul, mul_assoc]
  rw [integral_finsetSum _ fun p _ => integrable_finsetSum _ fun q _ => i p q]
  refine Finset.sum_congr rfl fun p _ => ?_
  rw [integral_finsetSum _ fun q _ => i p q]
  exact Finset.sum_congr rfl fun q _ => integral_const_mul _ _

theorem go_symm (a b : ℝ) (k l : ℕ) (U V : (Fin 3 → ℝ) → Fin 3 → ℝ) (r : Fin 3 → ℝ) :
    go a b k l U V r = go b a l k V U (-r) := by
  unfold go
  congr 1
  funext n
  rw [kerK_symm, hat_swap]
  congr 2
  rw [dt3, dt3]
  simp only [Pi.neg_apply]
  ring

/-- The overlap integral of two components. -/
noncomputable def covl (a b : ℝ) (c1 c2 : Comp) (r : Fin 3 → ℝ) : ℝ :=
  cwt a c1 * cwt b c2 * go a b (cdeg c1) (cdeg c2) (cfld c1) (cfld c2) r

theorem covl_symm (a b : ℝ) (c1 c2 : Comp) (r : Fin 3 → ℝ) : covl a b c1 c2 r = covl b a c2 c1 (-r) := by
  unfold covl
  rw [go_symm, mul_comm (cwt a c1)]

theorem covl_s {a b : ℝ} (ha : 0 ≤ a) (hb : 0 ≤ b) (c1 : Comp) (q : Fin 5) (r : Fin 3 → ℝ) :
    covl a b c1 (.s q) r = ∑ j, ∑ k, basis5 q j k *
      (cwt a c1 * (3 / (2 * b ^ 3)) * go a b (cdeg c1) 1 (cfld c1) (lfld (.stress j k)) r) := by
  unfold covl
  have := go_sum ha hb (cdeg c1) 1 (cfld_cont c1) (basis5 q) (fun j k => lfld_cont (.stress j k)) r
  rw [show go a b (cdeg c1) (cdeg (.s q)) (cfld c1) (cfld (.s q)) r = _ from this]
  simp only [Finset.mul_sum, cwt]
  refine Finset.sum_congr rfl fun j _ => Finset.sum_congr rfl fun k _ => ?_
  ring

/-- Both components are stresslets. -/
theorem covl_ss {a b : ℝ} (ha : 0 ≤ a) (hb : 0 ≤ b) (p q : Fin 5) (r : Fin 3 → ℝ) :
    covl a b (.s p) (.s q) r = ∑ j, ∑ k, basis5 q j k * ∑ i, ∑ m, basis5 p i m *
      ovl a b (.stress i m) (.stress j k) r := by
  rw [covl_s ha hb]
  refine Finset.sum_congr rfl fun j _ => Finset.sum_congr rfl fun k _ => ?_
  congr 1
  rw [go_symm]
  have := go_sum hb ha 1 1 (lfld_cont (.stress j k)) (basis5 p) (fun i m => lfld_cont (.stress i m)) (-r)
  rw [show go b a 1 (cdeg (.s p)) (lfld (.stress j k)) (cfld (.s p)) (-r) = _ from this, Finset.mul_sum]
  refine Finset.sum_congr rfl fun i _ => ?_
  rw [Finset.mul_sum]
  refine Finset.sum_congr rfl fun m _ => ?_
  rw [ovl_symm]
  simp only [cwt, ovl, lwt, ldeg, go]
  ring

/-- **The identity.** The mobility of two spheres that do not overlap is the overlap of their projected loads. -/
theorem pair_overlap {a b : ℝ} {r : Fin 3 → ℝ} (ha : 0 < a) (hb : 0 < b) (hr : a + b ≤ len r) (c1 c2 : Comp) :
    Real.pi * pairMob a b c1 c2 r = covl a b c1 c2 r := by
  have right : ∀ {a b : ℝ} {r : Fin 3 → ℝ} (_ : 0 < a) (_ : 0 < b) (_ : a + b ≤ len r) (q : Fin 5),
      (∀ i, Real.pi * pairMob a b (.f i) (.s q) r = covl a b (.f i) (.s q) r) ∧
      (∀ i, Real.pi * pairMob a b (.t i) (.s q) r = covl a b (.t i) (.s q) r) := by
    intro a b r ha hb hr q
    refine ⟨fun i => ?_, fun i => ?_⟩ <;>
    · rw [covl_s ha.le hb.le]
      simp only [pairMob, respTo, Finset.mul_sum]
      refine Finset.sum_congr rfl fun j _ => Finset.sum_congr rfl fun k _ => ?_
      rw [mul_left_comm, ovl_all ha hb hr]
      rfl
  have hl : len (-r) = len r := by simp [len]
  have hr' : b + a ≤ len (-r) := by rw [hl]; linarith
  have hne := (len_facts ha hb hr).2.2
  cases c1 with
  | f i =>
    cases c2 with
    | f j => exact ovl_all ha hb hr (.force i) (.force j)
    | t j => exact ovl_all ha hb hr (.force i) (.torque j)
    | s q => exact (right ha hb hr q).1 i
  | t i =>
    cases c2 with
    | f j => exact ovl_all ha hb hr (.torque i) (.force j)
    | t j => exact ovl_all ha hb hr (.torque i) (.torque j)
    | s q => exact (right ha hb hr q).2 i
  | s p =>
    cases c2 with
    | f j => rw [pairMob_recip hne, covl_symm]; exact (right hb ha hr' p).1 j
    | t j => rw [pairMob_recip hne, covl_symm]; exact (right hb ha hr' p).2 j
    | s q =>
      rw [covl_ss ha.le hb.le]
      have e : pairMob a b (.s p) (.s q) r = five (fun i j => respTo a b (.stress i j) (.s q) r) p := rfl
      have st : ∀ k l, SymTraceless fun i j => response a b (.stress i j) (.stress k l) r := by
        intro k l
        simp only [resp_recip hne a b _ (.stress k l)]
        exact resp_stress_symTraceless (neg_ne_zero.mpr hne) b a (.stress k l)
      rw [e, ← basis5_contract _ ⟨fun i j => ?_, ?_⟩]
      · simp only [respTo, Finset.mul_sum, ← ovl_all ha hb hr, Fin.sum_univ_three]
        ring
      · simp only [respTo, ← Finset.sum_add_distrib, ← mul_add]
        refine Finset.sum_eq_zero fun k _ => Finset.sum_eq_zero fun l _ => ?_
        rw [(st k l).2, mul_zero]
      · simp only [respTo]
        refine Finset.sum_congr rfl fun k _ => Finset.sum_congr rfl fun l _ => ?_
        exact congrArg _ ((st k l).1 i j)

/-! ## A sphere with itself -/

section Self

theorem const_weight (h : ℝ) : Weight fun _ : ℝ => h := ⟨measurable_const, |h|, fun _ => le_rfl⟩

theorem dt_zero (n : Fin 3 → ℝ) : dt n 0 = 0 := by rw [dt3]; simp

theorem ax_facts : dt ax ax = (1 : ℝ) ^ 2 := by rw [dt_ax]; simp [ax]

theorem int_c0 (h : ℝ) : ∫ _, h ∂sph = 4 * Real.pi * h := by
  have := zon0 (r := ax) (s := 1) (const_weight h) (const_weight h) one_ne_zero ax_facts
  rw [this, (mom_const h).1]

theorem int_c2 (h : ℝ) (x y : Fin 3 → ℝ) : ∫ n, dt n x * dt n y * h ∂sph = 4 * Real.pi * h / 3 * dt x y := by
  have := zon2 (r := ax) (s := 1) (const_weight h) (const_weight h) one_ne_zero ax_facts x y
  rw [this, (mom_const h).1, (mom_const h).2.1]
  ring

theorem int_c4 (h : ℝ) (x y z w : Fin 3 → ℝ) : ∫ n, dt n x * dt n y * dt n z * dt n w * h ∂sph
    = 4 * Real.pi * h / 15 * (dt x y * dt z w + dt x z * dt y w + dt x w * dt y z) := by
  have := zon4 (r := ax) (s := 1) (const_weight h) (const_weight h) one_ne_zero ax_facts x y z w
  rw [this, (mom_const h).1, (mom_const h).2.1, (mom_const h).2.2]
  ring

theorem int_ci (h : ℝ) : Integrable (fun _ => h) sph := integrable_const h

theorem int_c2i (h : ℝ) (x y : Fin 3 → ℝ) : Integrable (fun n => dt n x * dt n y * h) sph :=
  int2 (const_weight h) ax x y

theorem int_c4i (h : ℝ) (x y z w : Fin 3 → ℝ) : Integrable (fun n => dt n x * dt n y * dt n z * dt n w * h) sph :=
  int4 (const_weight h) ax x y z w

variable {a : ℝ} (ha : 0 < a)
include ha

theorem self_FF (i j : Fin 3) : ovl a a (.force i) (.force j) 0 = 4 * Real.pi / (3 * a) * dlt i j := by
  unfold ovl
  simp only [ker_FF, lwt, ldeg, sub_mul, dt_zero, (hat_self ha).1]
  rw [integral_sub (int_ci _) (int_c2i _ _ _), int_c0, int_c2, dt_dlt]
  field_simp
  ring

theorem self_TT (i j : Fin 3) : ovl a a (.torque i) (.torque j) 0 = Real.pi / a ^ 3 * dlt i j := by
  unfold ovl
  rw [integral_congr_ae (g := fun n => (dt (dlt i) (dlt j) - dt n (dlt i) * dt n (dlt j)) * hat a a 1 1 (dt n 0)) (by
    filter_upwards [dt_self_ae] with n hn
    rw [ker_TT n hn]; rfl)]
  simp only [lwt, sub_mul, dt_zero, (hat_self ha).2.2.2]
  rw [integral_sub (int_ci _) (int_c2i _ _ _), int_c0, int_c2, dt_dlt]
  field_simp
  ring

theorem self_TS (i j k : Fin 3) : ovl a a (.torque i) (.stress j k) 0 = 0 := by
  have e2 : dt (eps j i) (dlt k) = -dt (eps k i) (dlt j) := by
    rw [dt_dlt, dt_dlt]
    fin_cases i <;> fin_cases j <;> fin_cases k <;> simp [eps]
  have i2 := fun c h x y => (int_c2i h x y).const_mul c
  unfold ovl
  simp only [ker_TS, lwt, ldeg, add_mul, mul_assoc (1 / 2 : ℝ), dt_zero, (hat_self ha).2.2.2]
  rw [integral_add (i2 _ _ _ _) (i2 _ _ _ _), integral_const_mul, integral_const_mul, int_c2, int_c2, e2]
  ring

theorem self_odd {l1 l2 : Load} (h : ldeg l1 + ldeg l2 = 1) : ovl a a l1 l2 0 = 0 := by
  have : hat a a (ldeg l1) (ldeg l2) 0 = 0 := by
    cases l1 <;> cases l2 <;> simp only [ldeg] at h ⊢ <;>
      first | exact (hat_self ha).2.1 | exact (hat_self ha).2.2.1 | omega
  unfold ovl
  simp only [dt_zero, this, mul_zero, integral_zero]

theorem self_SS (i j k l : Fin 3) : ovl a a (.stress i j) (.stress k l) 0
    = 3 / (2 * a ^ 3) * (Real.pi * (2 / 5 * (dlt i k * dlt j l + dlt i l * dlt j k) - 4 / 15 * (dlt i j * dlt k l))) := by
  have i2 := fun c h x y => (int_c2i h x y).const_mul c
  unfold ovl
  simp only [ker_SS, lwt, ldeg, sub_mul, add_mul, mul_assoc (dt _ _ / 4), dt_zero, (hat_self ha).2.2.2]
  rw [lin5 (i2 _ _ _ _) (i2 _ _ _ _) (i2 _ _ _ _) (i2 _ _ _ _) (int_c4i _ _ _ _ _)]
  simp only [integral_const_mul, int_c2, int_c4]
  simp only [dt_dlt]
  field_simp
  ring

end Self

theorem basis5_dot (p q : Fin 5) : ∑ i, ∑ j, basis5 p i j * basis5 q i j = if q = p then 1 else 0 := by
  rw [basis5_contract _ (basis5_symm q), five_basis5]

/-- **The identity for one sphere.** -/
theorem self_overlap {mu a : ℝ} (hmu : 0 < mu) (ha : 0 < a) (c1 c2 : Comp) :
    8 * Real.pi ^ 2 * mu * selfMob mu a c1 c2 = covl a a c1 c2 0 := by
  have hp := Real.pi_pos
  have zs : ∀ c1 : Comp, ∀ l1 : Load, cfld c1 = lfld l1 → cdeg c1 = ldeg l1 → cwt a c1 = lwt a l1 →
      (∀ j k, ovl a a l1 (.stress j k) 0 = 0) → ∀ q, covl a a c1 (.s q) 0 = 0 := by
    intro c1 l1 h1 h2 h3 h4 q
    rw [covl_s ha.le ha.le, h1, h2, h3]
    refine Finset.sum_eq_zero fun j _ => Finset.sum_eq_zero fun k _ => ?_
    have := h4 j k
    rw [show lwt a l1 * (3 / (2 * a ^ 3)) * go a a (ldeg l1) 1 (lfld l1) (lfld (.stress j k)) 0
      = ovl a a l1 (.stress j k) 0 from rfl, this, mul_zero]
  have fs := fun i q => zs (.f i) (.force i) rfl rfl rfl (fun j k => self_odd ha rfl) q
  have ts := fun i q => zs (.t i) (.torque i) rfl rfl rfl (fun j k => self_TS ha i j k) q
  have n0 : -(0 : Fin 3 → ℝ) = 0 := neg_zero
  cases c1 with
  | f i =>
    cases c2 with
    | f j =>
      rw [show covl a a (.f i) (.f j) 0 = ovl a a (.force i) (.force j) 0 from rfl, self_FF ha]
      simp only [selfMob, dlt]
      split_ifs
      · field_simp; norm_num
      · simp
    | t j =>
      rw [show covl a a (.f i) (.t j) 0 = ovl a a (.force i) (.torque j) 0 from rfl, self_odd ha rfl]
      simp [selfMob]
    | s q => rw [fs]; simp [selfMob]
  | t i =>
    cases c2 with
    | f j =>
      rw [show covl a a (.t i) (.f j) 0 = ovl a a (.torque i) (.force j) 0 from rfl, self_odd ha rfl]
      simp [selfMob]
    | t j =>
      rw [show covl a a (.t i) (.t j) 0 = ovl a a (.torque i) (.torque j) 0 from rfl, self_TT ha]
      simp only [selfMob, dlt]
      split_ifs
      · field_simp
      · simp
    | s q => rw [ts]; simp [selfMob]
  | s p =>
    cases c2 with
    | f j => rw [covl_symm, n0, fs]; simp [selfMob]
    | t j => rw [covl_symm, n0, ts]; simp [selfMob]
    | s q =>
      rw [covl_ss ha.le ha.le]
      simp only [self_SS ha]
      have d := basis5_dot p q
      have tp := (basis5_symm p).2
      have tq := (basis5_symm q).2
      have sp := (basis5_symm p).1
      have e : ∑ j, ∑ k, basis5 q j k * ∑ i, ∑ m, basis5 p i m *
          (3 / (2 * a ^ 3) * (Real.pi * (2 / 5 * (dlt i j * dlt m k + dlt i k * dlt m j) - 4 / 15 * (dlt i m * dlt j k))))
          = 3 / (2 * a ^ 3) * Real.pi * (4 / 5 * ∑ i, ∑ j, basis5 p i j * basis5 q i j
            - 4 / 15 * ((basis5 p 0 0 + basis5 p 1 1 + basis5 p 2 2) * (basis5 q 0 0 + basis5 q 1 1 + basis5 q 2 2))) := by
        simp only [Fin.sum_univ_three, dlt, sp 1 0, sp 2 0, sp 2 1]
        simp
        ring
      rw [e, d, tp]
      simp only [selfMob, eq_comm (a := q)]
      split_ifs
      · field_simp; ring
      · simp

end SD.Sph
