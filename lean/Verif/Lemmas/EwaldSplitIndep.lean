import Verif.Lemmas.EwaldArrayGreen

/-!
# The infinite sums do not depend on where they are split
-/

set_option autoImplicit false

namespace SD.Ewald

open Spec Filter Topology

theorem wave_zero (lam : ℝ) (i j : Fin 3) : waveJ lam i j 0 = 0 := by
  have l0 : len 0 = 0 := by unfold len; simp
  simp [waveJ, l0]

theorem waveResp_zero (lam a b : ℝ) (l1 l2 : Load) (r : Vec3) : waveResp lam a b l1 l2 r 0 = 0 := by
  have h := respVal_mul 0 (fun _ _ => 0) (fun _ _ _ => 0) (fun _ _ _ _ => 0) l1 l2
  simp only [zero_mul] at h
  unfold waveResp
  simp only [wave_zero, mul_zero, neg_zero, h, add_zero]

section
variable {a b : Fin 3} (hab : a ≠ b) {d : Fin 3 → ℝ} (hd : ∀ i, 0 < d i) (γ : ℝ)
include hab hd

theorem inner_dual (m : Fin 3 → ℤ) (e : Fin 3) : inner3 (gridVec (dualBox d a b γ) m) (shearedBox d a b γ e) = 2 * Real.pi * m e := by
  obtain ⟨z, hA⟩ := exists_third hab
  unfold inner3 dualBox
  rw [hA.sum]
  simp only [grid_sheared hA.swap, shearedBox]
  have := hd a; have := hd b; have := hd z
  rcases hA.cases e with rfl | rfl | rfl
  · simp [hA.ab, hA.ab.symm, hA.ac.symm, hA.bc.symm]
    field_simp
  · simp [hA.ab, hA.ab.symm, hA.ac.symm, hA.bc.symm]
    field_simp
    ring
  · simp [hA.ab, hA.ab.symm, hA.ac, hA.bc, hA.ac.symm, hA.bc.symm]
    field_simp

theorem vol_sheared : vol (shearedBox d a b γ) = d 0 * d 1 * d 2 := by
  have e : ∀ a b : Fin 3, a ≠ b → vol (shearedBox d a b γ) = d 0 * d 1 * d 2 := by
    intro a b hab
    fin_cases a <;> fin_cases b <;> first | exact absurd rfl hab | (simp [vol, shearedBox]; try ring)
  exact e a b hab

/-- Sum over the waves of the box. -/
theorem tsum_waves_dual {F : Vec3 → ℝ} (hF : F 0 = 0) :
    ∑' k : {k // IsWave (shearedBox d a b γ) k}, F k.1 = ∑' g, F (gridVec (dualBox d a b γ) g) := by
  have hB := spans_box hab hd γ
  have hV0 : 0 < d 0 * d 1 * d 2 := by have := hd 0; have := hd 1; have := hd 2; positivity
  have hL : (d 0 * d 1 * d 2) ^ (1 / 3 : ℝ) ≠ 0 := (Real.rpow_pos_of_pos hV0 _).ne'
  have hV : vol (shearedBox d a b γ) = ((d 0 * d 1 * d 2) ^ (1 / 3 : ℝ)) ^ 3 := by
    rw [vol_sheared hab hd, ← Real.rpow_natCast, ← Real.rpow_mul hV0.le]
    norm_num
  rw [tsum_waves hV hL]
  let σ : (Fin 3 → ℤ) ≃ (Fin 3 → ℤ) :=
    { toFun := fun g => ![-g 1, -g 0, g 2]
      invFun := fun g => ![-g 1, -g 0, g 2]
      left_inv := fun g => by funext i; fin_cases i <;> simp
      right_inv := fun g => by funext i; fin_cases i <;> simp }
  refine Eq.trans (tsum_congr fun g => ?_) (σ.tsum_eq fun g => F (gridVec (dualBox d a b γ) g))
  have e : gridVec (k_basis_vectors ((d 0 * d 1 * d 2) ^ (1 / 3 : ℝ)) (shearedBox d a b γ)) g = gridVec (dualBox d a b γ) (σ g) := by
    refine inner_ext hB fun x => ?_
    rw [dual_inner hV hL, inner_dual hab hd]
    rfl
  rw [← e]
  split_ifs with hg
  · rw [hg, gridVec_zero, hF]
  · rfl

theorem arrayGreen_grid (lam V : ℝ) (i j : Fin 3) (r : Vec3) : arrayGreen lam V (shearedBox d a b γ) i j r
    = ∑' g, nearJ lam i j (fun m => r m + gridVec (shearedBox d a b γ) g m)
      + 1 / V * ∑' g, Real.cos (inner3 (gridVec (dualBox d a b γ) g) r) * waveJ lam i j (gridVec (dualBox d a b γ) g) := by
  unfold arrayGreen
  rw [tsum_images (spans_box hab hd γ) fun v => nearJ lam i j fun m => r m + v m,
    tsum_waves_dual hab hd γ (F := fun k => Real.cos (inner3 k r) * waveJ lam i j k) (by simp [wave_zero])]

theorem off_iff {r : Vec3} : r ∈ Off (shearedBox d a b γ) ↔ ∀ v, InLattice (shearedBox d a b γ) v → (fun m => r m + v m) ≠ 0 := by
  constructor
  · intro h v hv
    obtain ⟨g, rfl⟩ := (inLattice_grid v).mp hv
    exact h g
  · intro h g
    exact h _ ((inLattice_grid _).mpr ⟨g, rfl⟩)

/-- Points close to zero are not on the lattice. -/
theorem off_near : ∀ᶠ r : Vec3 in 𝓝[≠] 0, r ∈ Off (shearedBox d a b γ) := by
  obtain ⟨c, hc, h⟩ := le_len_grid (spans_box hab hd γ)
  have h0 : len (0 : Vec3) = 0 := by simp [len]
  have near : ∀ᶠ r : Vec3 in 𝓝[≠] 0, len r < c := by
    have hcont : Continuous (len : Vec3 → ℝ) := by unfold len; fun_prop
    refine nhdsWithin_le_nhds (hcont.continuousAt.eventually (gt_mem_nhds ?_))
    rw [h0]
    exact hc
  filter_upwards [near, self_mem_nhdsWithin] with r hr hr0 m e
  have er : r = fun i => -gridVec (shearedBox d a b γ) m i := by
    funext i
    have := congrFun e i
    simp only [Pi.zero_apply] at this
    linarith
  by_cases hm : m = 0
  · subst hm
    refine hr0 (Set.mem_singleton_iff.mpr ?_)
    rw [er]
    funext i
    simp [gridVec, vecMat3]
  · have h1 : (1 : ℝ) ≤ ‖m‖ := by
      obtain ⟨i, hi⟩ := Function.ne_iff.mp hm
      have h2 : (1 : ℝ) ≤ ‖m i‖ := by
        rw [Int.norm_eq_abs]
        exact_mod_cast Int.one_le_abs hi
      exact h2.trans (norm_le_pi_norm m i)
    have h2 := h m
    have h3 : len r = len (gridVec (shearedBox d a b γ) m) := by
      rw [er]; unfold len; simp
    rw [h3] at hr
    nlinarith

/-- The response through the Green's function of the array. -/
theorem arrayGreen_response {lam : ℝ} (hl : 0 < lam) (V ra rb : ℝ) (l1 l2 : Load) {r : Vec3} (hr : r ∈ Off (shearedBox d a b γ)) :
    greenResponse (arrayGreen lam V (shearedBox d a b γ)) ra rb l1 l2 r = arrayResp lam V (shearedBox d a b γ) ra rb l1 l2 r := by
  have hB := spans_box hab hd γ
  have hK := spans_dualBox hab hd γ
  have e : arrayGreen lam V (shearedBox d a b γ) = fun i j r => ∑' g, nearJ lam i j (fun m => r m + gridVec (shearedBox d a b γ) g m)
      + 1 / V * ∑' g, Real.cos (inner3 (gridVec (dualBox d a b γ) g) r) * waveJ lam i j (gridVec (dualBox d a b γ) g) := by
    funext i j r; exact arrayGreen_grid hab hd γ lam V i j r
  rw [e, greenResponse_jet (isOpen_off hB) (fun i j => (nearJ_images hl hB i j).add
    (((waveJ_waves hl hK i j).const_mul (1 / V)).mono (Set.subset_univ _))) ra rb l1 l2 hr,
    respVal_add, respVal_add, respVal_mul, respVal_mul]
  unfold arrayResp imagesResp wavesResp
  rw [tsum_images hB fun v => greenResponse (nearJ lam) ra rb l1 l2 fun m => r m + v m]
  simp only [oneWave_response]
  rw [tsum_waves_dual hab hd γ (F := fun k => waveResp lam ra rb l1 l2 r k) (waveResp_zero lam ra rb l1 l2 r),
    tsum_congr fun g => nearJ_response lam ra rb l1 l2 (hr g)]
  obtain ⟨t0, t1, t2⟩ := T_quick (pJ_quick hl) (qJ_quick hl)
  obtain ⟨u0, u1, u2⟩ := T_quick (lapP_quick hl) (lapQ_quick hl)
  have s1 := respVal_tsum (G0 := fun g i j => T0 (pJ lam) (qJ lam) i j fun m => r m + gridVec (shearedBox d a b γ) g m)
    (G1 := fun g i j l => T1 (pJ lam) (qJ lam) i j l fun m => r m + gridVec (shearedBox d a b γ) g m)
    (G2 := fun g i j m l => T2 (pJ lam) (qJ lam) i j m l fun m => r m + gridVec (shearedBox d a b γ) g m)
    (fun i j => images_summable hB (t0 i j) r) (fun i j l => images_summable hB (t1 i j l) r)
    (fun i j m l => images_summable hB (t2 i j m l) r) l1 l2
  have s2 := respVal_tsum (G0 := fun g i j => T0 (lapP (pJ lam) (qJ lam)) (lapQ (qJ lam)) i j fun m => r m + gridVec (shearedBox d a b γ) g m)
    (G1 := fun g i j l => T1 (lapP (pJ lam) (qJ lam)) (lapQ (qJ lam)) i j l fun m => r m + gridVec (shearedBox d a b γ) g m)
    (G2 := fun g i j m l => T2 (lapP (pJ lam) (qJ lam)) (lapQ (qJ lam)) i j m l fun m => r m + gridVec (shearedBox d a b γ) g m)
    (fun i j => images_summable hB (u0 i j) r) (fun i j l => images_summable hB (u1 i j l) r)
    (fun i j m l => images_summable hB (u2 i j m l) r) l1 l2
  have hJ := fun i j => waveJ_quick (β := Vec3) hl i j
  have hc : Mild fun k : Vec3 × Vec3 => Real.cos (inner3 k.2 k.1) := mild_bounded fun _ => Real.abs_cos_le_one _
  have hs : Mild fun k : Vec3 × Vec3 => Real.sin (inner3 k.2 k.1) := mild_bounded fun _ => Real.abs_sin_le_one _
  have hk := mild_coord (β := Vec3)
  have hl2 := (mild_len (β := Vec3)).pow 2
  have a0 := fun i j => hc.mul_quick (hJ i j)
  have a1 := fun i j l => ((hk l).mul hs).mul_quick (hJ i j)
  have a2 := fun i j m l => ((hk m).mul (hk l)).mul_quick (a0 i j)
  have w1 := respVal_tsum (G0 := fun g i j => Real.cos (inner3 (gridVec (dualBox d a b γ) g) r) * waveJ lam i j (gridVec (dualBox d a b γ) g))
    (G1 := fun g i j l => -(gridVec (dualBox d a b γ) g l * Real.sin (inner3 (gridVec (dualBox d a b γ) g) r) * waveJ lam i j (gridVec (dualBox d a b γ) g)))
    (G2 := fun g i j m l => -(gridVec (dualBox d a b γ) g m * gridVec (dualBox d a b γ) g l
      * (Real.cos (inner3 (gridVec (dualBox d a b γ) g) r) * waveJ lam i j (gridVec (dualBox d a b γ) g))))
    (fun i j => waves_summable (F := fun k r => Real.cos (inner3 k r) * waveJ lam i j k) hK (a0 i j) r)
    (fun i j l => waves_summable (F := fun k r => -(k l * Real.sin (inner3 k r) * waveJ lam i j k)) hK (a1 i j l).neg r)
    (fun i j m l => waves_summable (F := fun k r => -(k m * k l * (Real.cos (inner3 k r) * waveJ lam i j k))) hK (a2 i j m l).neg r) l1 l2
  have w2 := respVal_tsum (G0 := fun g i j => -(len (gridVec (dualBox d a b γ) g) ^ 2
      * (Real.cos (inner3 (gridVec (dualBox d a b γ) g) r) * waveJ lam i j (gridVec (dualBox d a b γ) g))))
    (G1 := fun g i j l => len (gridVec (dualBox d a b γ) g) ^ 2 * (gridVec (dualBox d a b γ) g l
      * Real.sin (inner3 (gridVec (dualBox d a b γ) g) r) * waveJ lam i j (gridVec (dualBox d a b γ) g)))
    (G2 := fun g i j m l => len (gridVec (dualBox d a b γ) g) ^ 2 * (gridVec (dualBox d a b γ) g m * gridVec (dualBox d a b γ) g l
      * (Real.cos (inner3 (gridVec (dualBox d a b γ) g) r) * waveJ lam i j (gridVec (dualBox d a b γ) g))))
    (fun i j => waves_summable (F := fun k r => -(len k ^ 2 * (Real.cos (inner3 k r) * waveJ lam i j k))) hK (hl2.mul_quick (a0 i j)).neg r)
    (fun i j l => waves_summable (F := fun k r => len k ^ 2 * (k l * Real.sin (inner3 k r) * waveJ lam i j k)) hK (hl2.mul_quick (a1 i j l)) r)
    (fun i j m l => waves_summable (F := fun k r => len k ^ 2 * (k m * k l * (Real.cos (inner3 k r) * waveJ lam i j k))) hK
      (hl2.mul_quick (a2 i j m l)) r) l1 l2
  have S1 := (s1.add (s2.mul_left (sized l1 * ra ^ 2 + sized l2 * rb ^ 2))).tsum_eq
  have S2 := (w1.add (w2.mul_left (sized l1 * ra ^ 2 + sized l2 * rb ^ 2))).tsum_eq
  rw [show (∑' g, nearResp lam ra rb l1 l2 fun m => r m + gridVec (shearedBox d a b γ) g m) = _ from S1,
    show (∑' g, waveResp lam ra rb l1 l2 r (gridVec (dualBox d a b γ) g)) = _ from S2]
  simp only [show ∀ i j, (∑' g, nearJ lam i j fun m => r m + gridVec (shearedBox d a b γ) g m)
    = ∑' g, T0 (pJ lam) (qJ lam) i j fun m => r m + gridVec (shearedBox d a b γ) g m from
    fun i j => tsum_congr fun g => nearJ_eq lam i j (hr g)]
  ring

/-! ## The derivative vanishes -/

end

theorem Quick.mono {β : Type} {f g : β × Vec3 → ℝ} (hf : Quick f) (h : ∀ y, |g y| ≤ |f y|) : Quick g := fun p => by
  obtain ⟨C, hC⟩ := hf p
  exact ⟨C, fun y hy => (h y).trans (hC y hy)⟩

section
variable {p q : ℝ} (hp : 0 < p)
include hp

theorem sqChain_uniform (n : ℕ) : Quick fun y : {t : ℝ // t ∈ Set.Ioo p q} × Vec3 => sqChain (y.1.1 ^ 2) n (len y.2) := by
  have hb : ∀ (y : {t : ℝ // t ∈ Set.Ioo p q} × Vec3), p < y.1.1 ∧ y.1.1 < q := fun y => y.1.2
  have hc : ∀ m : ℕ, Mild fun y : {t : ℝ // t ∈ Set.Ioo p q} × Vec3 => (-2 * y.1.1 ^ 2) ^ m := fun m => by
    refine mild_bounded (c := (2 * q ^ 2) ^ m) fun y => ?_
    obtain ⟨h1, h2⟩ := hb y
    rw [abs_pow]
    refine pow_le_pow_left₀ (abs_nonneg _) ?_ m
    rw [abs_mul, abs_of_nonneg (sq_nonneg y.1.1)]
    norm_num
    exact pow_le_pow_left₀ (by linarith) h2.le 2
  have hg : Quick fun y : {t : ℝ // t ∈ Set.Ioo p q} × Vec3 => Real.exp (-(y.1.1 ^ 2 * len y.2 ^ 2)) := by
    refine (gauss_quick (c := p ^ 2) (by positivity)).mono fun y => ?_
    obtain ⟨h1, h2⟩ := hb y
    rw [abs_of_pos (Real.exp_pos _), abs_of_pos (Real.exp_pos _)]
    refine Real.exp_le_exp.mpr (neg_le_neg ?_)
    exact mul_le_mul_of_nonneg_right (pow_le_pow_left₀ hp.le h1.le 2) (sq_nonneg _)
  unfold sqChain
  exact (((hc n).mul (mild_len.pow 2)).add ((mild_const _).mul (hc (n - 1)))).mul_quick hg

theorem nearD_uniform (i j : Fin 3) : Quick fun y : {t : ℝ // t ∈ Set.Ioo p q} × Vec3 =>
    -(2 / Real.sqrt Real.pi) * T0 (pOf (sqChain (y.1.1 ^ 2))) (qOf (sqChain (y.1.1 ^ 2))) i j y.2 := by
  have h1 := sqChain_uniform (q := q) hp 1
  have h2 := sqChain_uniform (q := q) hp 2
  have hc := mild_coord (β := {t : ℝ // t ∈ Set.Ioo p q})
  have h := ((((h1.const_mul 2).add ((mild_len.pow 2).mul_quick h2)).const_mul (dlt i j)).add
    (((hc i).mul (hc j)).mul_quick h2.neg)).const_mul (-(2 / Real.sqrt Real.pi))
  refine h.congr fun y _ => ?_
  simp [T0, pOf, qOf, bump]

theorem waveD_uniform (i j : Fin 3) : Quick fun y : {t : ℝ // t ∈ Set.Ioo p q} × Vec3 => waveD y.1.1 i j y.2 := by
  have hb : ∀ (y : {t : ℝ // t ∈ Set.Ioo p q} × Vec3), p < y.1.1 ∧ y.1.1 < q := fun y => y.1.2
  have hq : ∀ (y : {t : ℝ // t ∈ Set.Ioo p q} × Vec3), 0 < q := fun y => by linarith [(hb y).1, (hb y).2]
  have hc := mild_coord (β := {t : ℝ // t ∈ Set.Ioo p q})
  have hl2 := (mild_len (β := {t : ℝ // t ∈ Set.Ioo p q})).pow 2
  have hi : ∀ m : ℕ, Mild fun y : {t : ℝ // t ∈ Set.Ioo p q} × Vec3 => (y.1.1 ^ m)⁻¹ := fun m => by
    refine mild_bounded (c := (p ^ m)⁻¹) fun y => ?_
    obtain ⟨h1, h2⟩ := hb y
    rw [abs_of_nonneg (by have : 0 < y.1.1 := by linarith
                          positivity)]
    exact inv_anti₀ (by positivity) (pow_le_pow_left₀ hp.le h1.le m)
  by_cases hq0 : 0 < q
  · have hg : Quick fun y : {t : ℝ // t ∈ Set.Ioo p q} × Vec3 => Real.exp (-(1 / (4 * y.1.1 ^ 2) * len y.2 ^ 2)) := by
      refine (gauss_quick (c := 1 / (4 * q ^ 2)) (by positivity)).mono fun y => ?_
      obtain ⟨h1, h2⟩ := hb y
      have h0 : 0 < y.1.1 := by linarith
      rw [abs_of_pos (Real.exp_pos _), abs_of_pos (Real.exp_pos _)]
      refine Real.exp_le_exp.mpr (neg_le_neg ?_)
      refine mul_le_mul_of_nonneg_right ?_ (sq_nonneg _)
      refine one_div_le_one_div_of_le (by positivity) ?_
      have := pow_le_pow_left₀ h0.le h2.le 2
      linarith
    have h := ((mild_const (2 * Real.pi)).mul (hi 3)).mul_quick
      ((((hc i).mul (hc j)).add ((mild_const (-dlt i j)).mul hl2)).mul_quick
        ((((mild_const (6 / 4)).mul (hi 2)).add (((mild_const (-1 / 4)).mul hl2).mul (hi 4))).mul_quick hg))
    refine h.congr fun y _ => ?_
    obtain ⟨h1, h2⟩ := hb y
    have h0 : 0 < y.1.1 := by linarith
    have e3 := sqrt_cube h0
    unfold waveD
    generalize Real.exp (-(1 / (4 * y.1.1 ^ 2) * len y.2 ^ 2)) = E
    rw [show 2 / Real.sqrt Real.pi * ((y.2 i * y.2 j - dlt i j * len y.2 ^ 2) * ((6 * y.1.1 ^ 2 - len y.2 ^ 2) / (4 * (y.1.1 ^ 2) ^ 2)
      * (Real.sqrt (Real.pi / y.1.1 ^ 2) ^ 3 * E))) = (2 / Real.sqrt Real.pi * Real.sqrt (Real.pi / y.1.1 ^ 2) ^ 3) *
        ((y.2 i * y.2 j - dlt i j * len y.2 ^ 2) * ((6 * y.1.1 ^ 2 - len y.2 ^ 2) / (4 * (y.1.1 ^ 2) ^ 2) * E)) by ring, e3]
    field_simp
    ring
  · intro n
    exact ⟨0, fun y _ => absurd (hq y) hq0⟩

end

section
variable {a b : Fin 3} (hab : a ≠ b) {d : Fin 3 → ℝ} (hd : ∀ i, 0 < d i) (γ : ℝ)
include hab hd

theorem images_lam {lam : ℝ} (hl : 0 < lam) (i j : Fin 3) {r : Vec3} (hr : r ∈ Off (shearedBox d a b γ)) :
    HasDerivAt (fun lam => ∑' g, nearJ lam i j fun m => r m + gridVec (shearedBox d a b γ) g m)
      (∑' g, -(2 / Real.sqrt Real.pi) * T0 (pOf (sqChain (lam ^ 2))) (qOf (sqChain (lam ^ 2))) i j
        fun m => r m + gridVec (shearedBox d a b γ) g m) lam := by
  have hB := spans_box hab hd γ
  obtain ⟨M, -, h2⟩ := (nearD_uniform (p := lam / 2) (q := 2 * lam) (by positivity) i j).lattice hB (len r)
  obtain ⟨C, hC⟩ := h2 6
  have hfin := finite_small M
  refine hasDerivAt_lattice (U := Set.Ioo (lam / 2) (2 * lam)) (u := fun g => C * (1 / ‖g‖ ^ 6)) hfin.toFinset
    isOpen_Ioo isPreconnected_Ioo ⟨by linarith, by linarith⟩ (F' := fun g lam => -(2 / Real.sqrt Real.pi) *
      T0 (pOf (sqChain (lam ^ 2))) (qOf (sqChain (lam ^ 2))) i j fun m => r m + gridVec (shearedBox d a b γ) g m)
    (fun g _ => near_lam hl i j (hr g)) (fun g _ t ht => near_lam (by linarith [ht.1]) i j (hr g))
    (fun g hg t ht => ?_) (summable_norm.mul_left C) (fun t ht => ?_)
  · rw [Set.Finite.mem_toFinset] at hg
    rw [mul_one_div]
    exact hC ⟨t, ht⟩ r g le_rfl (not_lt.mp hg)
  · have hlt : 0 < t := by linarith [ht.1]
    refine (images_summable hB ((T_quick (pJ_quick hlt) (qJ_quick hlt)).1 i j) r).congr fun g => ?_
    exact (nearJ_eq t i j (hr g)).symm

theorem waves_lam {lam : ℝ} (hl : 0 < lam) (i j : Fin 3) (r : Vec3) :
    HasDerivAt (fun lam => ∑' g, Real.cos (inner3 (gridVec (dualBox d a b γ) g) r) * waveJ lam i j (gridVec (dualBox d a b γ) g))
      (∑' g, Real.cos (inner3 (gridVec (dualBox d a b γ) g) r) * waveD lam i j (gridVec (dualBox d a b γ) g)) lam := by
  have hK := spans_dualBox hab hd γ
  have hq := waveD_uniform (p := lam / 2) (q := 2 * lam) (by positivity) i j
  have hc : Mild fun y : {t : ℝ // t ∈ Set.Ioo (lam / 2) (2 * lam)} × Vec3 => Real.cos (inner3 y.2 r) :=
    mild_bounded fun _ => Real.abs_cos_le_one _
  obtain ⟨M, -, h2⟩ := (hc.mul_quick hq).lattice hK 0
  obtain ⟨C, hC⟩ := h2 6
  have l0 : len 0 ≤ 0 := by unfold len; simp
  have z : ∀ g, (fun m => (0 : Vec3) m + gridVec (dualBox d a b γ) g m) = gridVec (dualBox d a b γ) g := fun g => by funext m; simp
  have hfin := finite_small M
  refine hasDerivAt_lattice (U := Set.Ioo (lam / 2) (2 * lam)) (u := fun g => C * (1 / ‖g‖ ^ 6)) hfin.toFinset
    isOpen_Ioo isPreconnected_Ioo ⟨by linarith, by linarith⟩ (F' := fun g lam =>
      Real.cos (inner3 (gridVec (dualBox d a b γ) g) r) * waveD lam i j (gridVec (dualBox d a b γ) g))
    (fun g _ => (wave_lam hl i j _).const_mul _) (fun g _ t ht => (wave_lam (by linarith [ht.1]) i j _).const_mul _)
    (fun g hg t ht => ?_) (summable_norm.mul_left C) (fun t ht => ?_)
  · rw [Set.Finite.mem_toFinset] at hg
    have h := hC ⟨t, ht⟩ 0 g l0 (not_lt.mp hg)
    rw [z] at h
    rw [mul_one_div]
    exact h
  · have hlt : 0 < t := by linarith [ht.1]
    exact waves_summable (F := fun k r => Real.cos (inner3 k r) * waveJ t i j k) hK (wave_quick (waveJ_quick hlt i j)) r

theorem arrayGreen_deriv {lam : ℝ} (hl : 0 < lam) (i j : Fin 3) {r : Vec3} (hr : r ∈ Off (shearedBox d a b γ)) :
    HasDerivAt (fun lam => arrayGreen lam (d 0 * d 1 * d 2) (shearedBox d a b γ) i j r) 0 lam := by
  have h := (images_lam hab hd γ hl i j hr).fun_add ((waves_lam hab hd γ hl i j r).const_mul (1 / (d 0 * d 1 * d 2)))
  have e : (fun lam => arrayGreen lam (d 0 * d 1 * d 2) (shearedBox d a b γ) i j r) = fun lam =>
      ∑' g, nearJ lam i j (fun m => r m + gridVec (shearedBox d a b γ) g m) + 1 / (d 0 * d 1 * d 2) *
        ∑' g, Real.cos (inner3 (gridVec (dualBox d a b γ) g) r) * waveJ lam i j (gridVec (dualBox d a b γ) g) := by
    funext lam; exact arrayGreen_grid hab hd γ lam _ i j r
  rw [e]
  refine h.congr_deriv ?_
  rw [tsum_mul_left, (stokes_pois hab hd γ (c := lam ^ 2) (by positivity) i j).eq r hr, ← tsum_mul_left, ← tsum_mul_left]
  have hK := spans_dualBox hab hd γ
  have : ∀ g, 1 / (d 0 * d 1 * d 2) * (Real.cos (inner3 (gridVec (dualBox d a b γ) g) r) * waveD lam i j (gridVec (dualBox d a b γ) g))
      = -(-(2 / Real.sqrt Real.pi) * (Real.cos (inner3 (gridVec (dualBox d a b γ) g) r) * ((gridVec (dualBox d a b γ) g i * gridVec (dualBox d a b γ) g j
        - dlt i j * len (gridVec (dualBox d a b γ) g) ^ 2) * ((6 * lam ^ 2 - len (gridVec (dualBox d a b γ) g) ^ 2) / (4 * (lam ^ 2) ^ 2)
          * gaussWave (d 0 * d 1 * d 2) (lam ^ 2) (gridVec (dualBox d a b γ) g))))) := by
    intro g
    unfold waveD gaussWave
    ring
  simp only [this]
  rw [tsum_neg]
  ring

/-- The Green's function of the array does not depend on the splitting parameter. -/
theorem arrayGreen_indep {lam lam' : ℝ} (hl : 0 < lam) (hl' : 0 < lam') (i j : Fin 3) {r : Vec3} (hr : r ∈ Off (shearedBox d a b γ)) :
    arrayGreen lam (d 0 * d 1 * d 2) (shearedBox d a b γ) i j r = arrayGreen lam' (d 0 * d 1 * d 2) (shearedBox d a b γ) i j r := by
  refine IsOpen.is_const_of_deriv_eq_zero (f := fun lam => arrayGreen lam (d 0 * d 1 * d 2) (shearedBox d a b γ) i j r)
    (isOpen_Ioi (a := (0 : ℝ))) isPreconnected_Ioi ?_ ?_ (Set.mem_Ioi.mpr hl) (Set.mem_Ioi.mpr hl')
  · exact fun x hx => (arrayGreen_deriv hab hd γ hx i j hr).differentiableAt.differentiableWithinAt
  · exact fun x hx => (arrayGreen_deriv hab hd γ hx i j hr).deriv

/-- Nor does the response. -/
theorem arrayResp_indep {lam lam' : ℝ} (hl : 0 < lam) (hl' : 0 < lam') (ra rb : ℝ) (l1 l2 : Load) {r : Vec3}
    (hr : r ∈ Off (shearedBox d a b γ)) : arrayResp lam (d 0 * d 1 * d 2) (shearedBox d a b γ) ra rb l1 l2 r
      = arrayResp lam' (d 0 * d 1 * d 2) (shearedBox d a b γ) ra rb l1 l2 r := by
  have hB := spans_box hab hd γ
  have hK := spans_dualBox hab hd γ
  rw [← arrayGreen_response hab hd γ hl _ ra rb l1 l2 hr, ← arrayGreen_response hab hd γ hl' _ ra rb l1 l2 hr]
  have jet : ∀ i j, _ := fun i j => (nearJ_images hl hB i j).add
    (((waveJ_waves hl hK i j).const_mul (1 / (d 0 * d 1 * d 2))).mono (Set.subset_univ _))
  have e1 : ∀ i j, ∀ r ∈ Off (shearedBox d a b γ), arrayGreen lam (d 0 * d 1 * d 2) (shearedBox d a b γ) i j r = _ :=
    fun i j r _ => arrayGreen_grid hab hd γ lam (d 0 * d 1 * d 2) i j r
  have j1 := fun i j => (jet i j).congr (isOpen_off hB) (e1 i j) (fun _ _ _ => rfl) (fun _ _ _ _ => rfl)
    (fun _ _ => rfl) (fun _ _ _ => rfl) (fun _ _ _ _ => rfl)
  have j2 := fun i j => (j1 i j).congr (isOpen_off hB) (fun r hr => (arrayGreen_indep hab hd γ hl hl' i j hr).symm) (fun _ _ _ => rfl)
    (fun _ _ _ _ => rfl) (fun _ _ => rfl) (fun _ _ _ => rfl) (fun _ _ _ _ => rfl)
  rw [greenResponse_jet (isOpen_off hB) j1 ra rb l1 l2 hr, greenResponse_jet (isOpen_off hB) j2 ra rb l1 l2 hr]
  simp only [arrayGreen_indep hab hd γ hl hl' _ _ hr]

end

end SD.Ewald
