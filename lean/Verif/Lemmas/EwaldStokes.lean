import Verif.Lemmas.EwaldSplitIndep
import Verif.Spec.ArrayFlow

/-!
# The Green's function of the infinite array solves the Stokes equations
-/

set_option autoImplicit false

namespace SD.Ewald

open Spec Filter Topology

/-! ## The screened part -/

theorem lapP_stokes (g : ℕ → ℝ → ℝ) (n : ℕ) (s : ℝ) : lapP (pOf g) (qOf g) n s = pOf (bump 3 g) n s := by
  simp only [lapP, pOf, qOf, bump]
  push_cast
  ring

theorem lapQ_stokes (g : ℕ → ℝ → ℝ) (n : ℕ) (s : ℝ) : lapQ (qOf g) n s = qOf (bump 3 g) n s := by
  simp only [lapQ, qOf, bump]
  push_cast
  ring

theorem T1_div (g : ℕ → ℝ → ℝ) (j : Fin 3) (y : Vec3) : ∑ i, T1 (pOf g) (qOf g) i j i y = 0 := by
  have h := sq_len y
  rw [Fin.sum_univ_three] at h
  rw [Fin.sum_univ_three]
  simp only [T1, pOf, qOf, bump]
  rw [h]
  fin_cases j <;> simp [dlt] <;> ring

/-- The fourth-order operator on the screened distance is a Gaussian times a polynomial. -/
theorem scr_four {lam : ℝ} (hl : 0 < lam) {s : ℝ} (hs : 0 < s) : bump 3 (bump 3 (scr lam)) 0 s
    = 8 * lam ^ 3 / Real.sqrt Real.pi * (gaussChain (lam ^ 2) 0 s - 1 / (4 * lam ^ 2) * bump 3 (gaussChain (lam ^ 2)) 0 s
      + 1 / (8 * lam ^ 4) * bump 3 (bump 3 (gaussChain (lam ^ 2))) 0 s) := by
  obtain ⟨-, h2, h3, h4, -⟩ := scr_closed lam hs _ rfl
  have h5 : Real.sqrt Real.pi ≠ 0 := by have := Real.pi_pos; positivity
  have e : Real.exp (-s ^ 2 * lam ^ 2) = Real.exp (-(lam ^ 2 * s ^ 2)) := by congr 1; ring
  simp only [bump, Nat.cast_zero, zero_add, Nat.reduceAdd, Nat.cast_one, Nat.cast_ofNat, h2, h3, h4, gaussChain]
  simp only [generate_erfcs, e, Matrix.cons_val]
  generalize Real.exp (-(lam ^ 2 * s ^ 2)) = E
  field_simp
  ring

/-! ## Strength of the waves of the fourth-order operator -/

noncomputable def waveFour (lam : ℝ) (k : Vec3) : ℝ :=
  8 * Real.pi * (1 + len k ^ 2 / (4 * lam ^ 2) + len k ^ 4 / (8 * lam ^ 4)) * Real.exp (-(len k ^ 2 / (4 * lam ^ 2)))

theorem waveFour_quick {β : Type} {lam : ℝ} (hl : 0 < lam) : Quick fun k : β × Vec3 => waveFour lam k.2 := by
  have hG := gauss_quick (β := β) (c := 1 / (4 * lam ^ 2)) (by positivity)
  have m2 : Mild fun k : β × Vec3 => 8 * Real.pi * (1 + (len k.2 ^ 2 * (4 * lam ^ 2)⁻¹ + len k.2 ^ 4 * (8 * lam ^ 4)⁻¹)) :=
    (mild_const _).mul ((mild_const _).add (((mild_len.pow 2).mul (mild_const _)).add ((mild_len.pow 4).mul (mild_const _))))
  refine (m2.mul_quick hG).congr fun k _ => ?_
  unfold waveFour
  rw [show -(len k.2 ^ 2 / (4 * lam ^ 2)) = -(1 / (4 * lam ^ 2) * len k.2 ^ 2) by ring]
  simp only [div_eq_mul_inv]
  ring

theorem waveJ_four (lam : ℝ) (i j : Fin 3) (k : Vec3) :
    waveJ lam i j k = (dlt i j - k i * k j / len k ^ 2) * (waveFour lam k / len k ^ 2) := by
  unfold waveJ waveFour
  ring

theorem waveFour_zero (lam : ℝ) : waveFour lam 0 = 8 * Real.pi := by
  have l0 : len 0 = 0 := by unfold len; simp
  simp [waveFour, l0]

theorem waveJ_div (lam : ℝ) (j : Fin 3) (k : Vec3) : ∑ i, k i * waveJ lam i j k = 0 := by
  by_cases hk : len k ^ 2 = 0
  · simp [waveJ, hk]
  · have h := sq_len k
    rw [Fin.sum_univ_three] at h
    simp only [waveJ_four, Fin.sum_univ_three]
    generalize waveFour lam k = A
    have : k j * (1 - (k 0 ^ 2 + k 1 ^ 2 + k 2 ^ 2) / len k ^ 2) * (A / len k ^ 2) = 0 := by
      rw [← h, div_self hk]; ring
    rw [← this]
    fin_cases j <;> simp [dlt] <;> ring

section
variable {a b : Fin 3} (hab : a ≠ b) {d : Fin 3 → ℝ} (hd : ∀ i, 0 < d i) (γ : ℝ)
include hab hd

/-- The fourth-order operator on the screened distance, summed over images. -/
theorem four_sum {lam : ℝ} (hl : 0 < lam) {r : Vec3} (hr : r ∈ Off (shearedBox d a b γ)) :
    ∑' g, bump 3 (bump 3 (scr lam)) 0 (len fun m => r m + gridVec (shearedBox d a b γ) g m)
      = 1 / (d 0 * d 1 * d 2) * ∑' g, Real.cos (inner3 (gridVec (dualBox d a b γ) g) r) * waveFour lam (gridVec (dualBox d a b γ) g) := by
  have hB := spans_box hab hd γ
  have hK := spans_dualBox hab hd γ
  have hc : 0 < lam ^ 2 := by positivity
  have hV0 : d 0 * d 1 * d 2 ≠ 0 := by have := hd 0; have := hd 1; have := hd 2; positivity
  have h0 := gauss_pois hab hd γ hc
  have q0 : Quick fun y : Vec3 × Vec3 => gaussWave (d 0 * d 1 * d 2) (lam ^ 2) y.2 := gaussWave_quick _ hc
  have h1 := h0.laplace hB hK (gaussChain_chain _) (gaussChain_quick hc) q0
  have q1 : Quick fun y : Vec3 × Vec3 => -(len y.2 ^ 2) * gaussWave (d 0 * d 1 * d 2) (lam ^ 2) y.2 :=
    (((mild_len.pow 2).mul_quick q0).neg).congr fun y _ => by ring
  have h2 := h1.laplace hB hK ((gaussChain_chain _).bump 3) (fun n => bump_quick (gaussChain_quick hc) 3 n) q1
  have h3 := (((h0.add hB hK (h1.const_mul (-(1 / (4 * lam ^ 2))))).add hB hK (h2.const_mul (1 / (8 * lam ^ 4)))).const_mul
    (8 * lam ^ 3 / Real.sqrt Real.pi)).eq r hr
  have h4 : Real.sqrt Real.pi ≠ 0 := by have := Real.pi_pos; positivity
  have hpi : Real.sqrt Real.pi ^ 2 = Real.pi := Real.sq_sqrt Real.pi_pos.le
  have hsq : Real.sqrt (Real.pi / lam ^ 2) = Real.sqrt Real.pi / lam := by
    rw [Real.sqrt_div Real.pi_pos.le, Real.sqrt_sq hl.le]
  refine Eq.trans (tsum_congr fun g => ?_) (h3.trans ?_)
  · rw [scr_four hl (len_pos (hr g))]
    ring
  · rw [← tsum_mul_left]
    refine tsum_congr fun g => ?_
    generalize gridVec (dualBox d a b γ) g = k
    unfold gaussWave waveFour
    rw [hsq, show -(1 / (4 * lam ^ 2) * len k ^ 2) = -(len k ^ 2 / (4 * lam ^ 2)) by ring]
    generalize Real.exp (-(len k ^ 2 / (4 * lam ^ 2))) = E
    clear hsq h3
    generalize Real.sqrt Real.pi = q at h4 hpi ⊢
    rw [← hpi]
    field_simp

end

/-! ## Near a point of the lattice -/

section
variable {B K : Mat3}

/-- A sum over images, less the singular part of its own term, has a limit. -/
theorem images_limit (hB : Spans B) {f f0 f1 : Vec3 → ℝ} (hf : Quick fun y : Unit × Vec3 => f y.2)
    (hc : ∀ y, y ≠ 0 → ContinuousAt f y) (h1 : Continuous f1) (e : ∀ y, y ≠ 0 → f y = f0 y + f1 y) :
    ∃ w, Tendsto (fun r => ∑' g, (f fun m => r m + gridVec B g m) - f0 r) (𝓝[≠] 0) (𝓝 w) := by
  have t1 := tsum_tendsto (F := fun r g => f fun m => r m + gridVec B g m) (by
    intro g hg
    have hne : gridVec B g ≠ 0 := fun e => hg (independent_of_spans hB _ e)
    have e0 : (fun m => (0 : Vec3) m + gridVec B g m) = gridVec B g := by
      funext m; simp
    have h2 : Tendsto (fun (r : Vec3) m => r m + gridVec B g m) (𝓝 0) (𝓝 (gridVec B g)) := by
      have : Continuous fun (r : Vec3) m => r m + gridVec B g m := by fun_prop
      have h3 := this.tendsto 0
      rwa [e0] at h3
    have h4 := (hc _ hne).tendsto.comp h2
    simp only [e0]
    exact h4) (by
    obtain ⟨N, -, hN⟩ := hf.lattice hB 1
    refine ⟨N, fun p => ?_⟩
    obtain ⟨C, hC⟩ := hN p
    exact ⟨C, fun r g => hC () r g⟩)
  refine ⟨_, (((t1.add (h1.tendsto 0))).mono_left (nhdsWithin_le_nhds (s := {0}ᶜ))).congr' ?_⟩
  filter_upwards [self_mem_nhdsWithin] with r h0
  rw [(images_summable hB hf r).tsum_eq_add_tsum_ite 0]
  have e1 : (fun m => r m + gridVec B 0 m) = r := by rw [gridVec_zero]; funext m; simp
  rw [e1, e r h0]
  ring

/-- A sum over waves has a limit. -/
theorem waves_limit (hK : Spans K) {F : Vec3 → Vec3 → ℝ} (hF : Quick fun y : Vec3 × Vec3 => F y.2 y.1)
    (hc : ∀ k, Continuous (F k)) (h0 : F 0 = 0) : ∃ w, Tendsto (fun r => ∑' g, F (gridVec K g) r) (𝓝[≠] 0) (𝓝 w) := by
  have t2 := tsum_tendsto (F := fun r g => F (gridVec K g) r) (fun g _ => (hc _).tendsto 0) (by
    obtain ⟨N, -, hN⟩ := hF.lattice hK 0
    refine ⟨N, fun p => ?_⟩
    obtain ⟨C, hC⟩ := hN p
    refine ⟨C, fun r g _ hg => ?_⟩
    have := hC r 0 g (by simp [len]) hg
    simpa using this)
  refine ⟨_, (t2.mono_left (nhdsWithin_le_nhds (s := {0}ᶜ))).congr fun r => tsum_congr fun g => ?_⟩
  split_ifs with hg
  · rw [hg, gridVec_zero, h0]; rfl
  · rfl

end

theorem Chain.continuousAt {g : ℕ → ℝ → ℝ} (h : Chain g) (n : ℕ) {y : Vec3} (hy : y ≠ 0) : ContinuousAt (fun y : Vec3 => g n (len y)) y :=
  ContinuousAt.comp (g := g n) (h n _ (len_pos hy)).continuousAt len_continuous.continuousAt

theorem T0_continuousAt {p q : ℕ → ℝ → ℝ} (hp : Chain p) (hq : Chain q) (i j : Fin 3) {y : Vec3} (hy : y ≠ 0) :
    ContinuousAt (T0 p q i j) y := by
  unfold T0
  exact (continuousAt_const.mul (hp.continuousAt 0 hy)).add
    ((((continuous_apply i).mul (continuous_apply j)).continuousAt).mul (hq.continuousAt 0 hy))

/-! ## Sums over the lattice are periodic -/

theorem images_shift {B : Mat3} {v : Vec3} (hv : InLattice B v) (F : Vec3 → ℝ) (r : Vec3) :
    ∑' w : {w // InLattice B w}, F (fun m => r m + v m + w.1 m) = ∑' w : {w // InLattice B w}, F fun m => r m + w.1 m := by
  let e : {w // InLattice B w} ≃ {w // InLattice B w} :=
    { toFun := fun w => ⟨fun m => v m + w.1 m, inLattice_add hv w.2⟩
      invFun := fun w => ⟨fun m => -v m + w.1 m, inLattice_add (inLattice_neg hv) w.2⟩
      left_inv := fun w => Subtype.ext (by funext m; simp)
      right_inv := fun w => Subtype.ext (by funext m; simp) }
  refine Eq.trans (tsum_congr fun w => ?_) (e.tsum_eq fun w => F fun m => r m + w.1 m)
  congr 1
  funext m
  simp only [e, Equiv.coe_fn_mk]
  ring

theorem wave_shift {B : Mat3} {v : Vec3} (hv : InLattice B v) {k : Vec3} (hk : IsWave B k) (r : Vec3) :
    Real.cos (inner3 k fun m => r m + v m) = Real.cos (inner3 k r)
      ∧ Real.sin (inner3 k fun m => r m + v m) = Real.sin (inner3 k r) := by
  obtain ⟨z, hz⟩ := hk.2 v hv
  have hin : inner3 k (fun m => r m + v m) = inner3 k r + z * (2 * Real.pi) := by
    rw [mul_comm (z : ℝ), ← hz]
    simp only [inner3, mul_add, Finset.sum_add_distrib]
  rw [hin, Real.cos_add_int_mul_two_pi, Real.sin_add_int_mul_two_pi]
  exact ⟨rfl, rfl⟩

theorem arrayGreen_shift (lam V : ℝ) {B : Mat3} {v : Vec3} (hv : InLattice B v) (i j : Fin 3) (r : Vec3) :
    arrayGreen lam V B i j (fun m => r m + v m) = arrayGreen lam V B i j r := by
  unfold arrayGreen
  rw [images_shift hv (nearJ lam i j) r]
  congr 2
  exact tsum_congr fun k => by rw [(wave_shift hv k.2 r).1]

/-! ## The pressure -/

/-- The pressure of the screened part. -/
noncomputable def nearPressure (lam : ℝ) (j : Fin 3) (y : Vec3) : ℝ := -1 * (y j * bump 3 (scr lam) 1 (len y))

/-- The pressure of a wave. -/
noncomputable def wavePressure (lam : ℝ) (j : Fin 3) (k r : Vec3) : ℝ :=
  k j * (waveFour lam k / len k ^ 2) * Real.sin (inner3 k r)

noncomputable def arrayPressure (lam V : ℝ) (B : Mat3) (j : Fin 3) (r : Vec3) : ℝ :=
  ∑' v : {v // InLattice B v}, nearPressure lam j (fun m => r m + v.1 m)
    + 1 / V * ∑' k : {k // IsWave B k}, wavePressure lam j k.1 r

theorem arrayPressure_shift (lam V : ℝ) {B : Mat3} {v : Vec3} (hv : InLattice B v) (j : Fin 3) (r : Vec3) :
    arrayPressure lam V B j (fun m => r m + v m) = arrayPressure lam V B j r := by
  unfold arrayPressure
  rw [images_shift hv (nearPressure lam j) r]
  congr 2
  refine tsum_congr fun k => ?_
  unfold wavePressure
  rw [(wave_shift hv k.2 r).2]

/-- Derivatives of the pressure of the screened part. -/
noncomputable def nearPressure' (lam : ℝ) (j i : Fin 3) (y : Vec3) : ℝ :=
  -1 * (dlt j i * bump 3 (scr lam) 1 (len y) + y j * (y i * bump 3 (scr lam) 2 (len y)))

noncomputable def wavePressure' (lam : ℝ) (j i : Fin 3) (k r : Vec3) : ℝ :=
  k j * (waveFour lam k / len k ^ 2) * (k i * Real.cos (inner3 k r))

theorem nearPressure_pd (lam : ℝ) (j i : Fin 3) {y : Vec3} (hy : y ≠ 0) :
    HasPd i (nearPressure lam j) (nearPressure' lam j i y) y :=
  ((hasPd_coord y i j).mul (((scr_chain lam).bump 3).hasPd 1 hy i)).const_mul (-1)

theorem wavePressure_pd (lam : ℝ) (j i : Fin 3) (k r : Vec3) : HasPd i (wavePressure lam j k) (wavePressure' lam j i k r) r :=
  (sin_hasPd k r i).const_mul _

section
variable {lam : ℝ} (hl : 0 < lam)
include hl

theorem nearPressure_quick (j : Fin 3) : Quick fun y : Unit × Vec3 => nearPressure lam j y.2 :=
  ((mild_coord j).mul_quick (bump_quick (scr_quick hl) 3 1)).const_mul (-1)

theorem nearPressure'_quick (j i : Fin 3) : Quick fun y : Unit × Vec3 => nearPressure' lam j i y.2 :=
  (((bump_quick (scr_quick hl) 3 1).const_mul _).add
    ((mild_coord j).mul_quick ((mild_coord i).mul_quick (bump_quick (scr_quick hl) 3 2)))).const_mul (-1)

theorem amp_quick (j : Fin 3) : Quick fun k : Vec3 × Vec3 => k.2 j * (waveFour lam k.2 / len k.2 ^ 2) := by
  have h := ((mild_coord (β := Vec3) j).mul (mild_inv_len 2)).mul_quick (waveFour_quick (β := Vec3) hl)
  exact h.congr fun k _ => by rw [div_eq_mul_inv]; ring

theorem wavePressure_quick (j : Fin 3) : Quick fun k : Vec3 × Vec3 => wavePressure lam j k.2 k.1 := by
  have hs : Mild fun k : Vec3 × Vec3 => Real.sin (inner3 k.2 k.1) := mild_bounded fun _ => Real.abs_sin_le_one _
  exact (hs.mul_quick (amp_quick hl j)).congr fun k _ => by unfold wavePressure; ring

theorem wavePressure'_quick (j i : Fin 3) : Quick fun k : Vec3 × Vec3 => wavePressure' lam j i k.2 k.1 := by
  have hc : Mild fun k : Vec3 × Vec3 => Real.cos (inner3 k.2 k.1) := mild_bounded fun _ => Real.abs_cos_le_one _
  exact (((mild_coord i).mul hc).mul_quick (amp_quick hl j)).congr fun k _ => by unfold wavePressure'; ring

end

/-! ## The Stokes equations -/

section
variable {a b : Fin 3} (hab : a ≠ b) {d : Fin 3 → ℝ} (hd : ∀ i, 0 < d i) (γ : ℝ)
include hab hd

theorem arrayPressure_grid (lam V : ℝ) (j : Fin 3) (r : Vec3) : arrayPressure lam V (shearedBox d a b γ) j r
    = ∑' g, nearPressure lam j (fun m => r m + gridVec (shearedBox d a b γ) g m)
      + 1 / V * ∑' g, wavePressure lam j (gridVec (dualBox d a b γ) g) r := by
  unfold arrayPressure
  rw [tsum_images (spans_box hab hd γ) fun v => nearPressure lam j fun m => r m + v m,
    tsum_waves_dual hab hd γ (F := fun k => wavePressure lam j k r) (by simp [wavePressure])]

section
variable {lam : ℝ} (hl : 0 < lam)
include hl

theorem arrayPressure_pd (V : ℝ) (j i : Fin 3) {r : Vec3} (hr : r ∈ Off (shearedBox d a b γ)) :
    HasPd i (arrayPressure lam V (shearedBox d a b γ) j)
      (∑' g, nearPressure' lam j i (fun m => r m + gridVec (shearedBox d a b γ) g m)
        + 1 / V * ∑' g, wavePressure' lam j i (gridVec (dualBox d a b γ) g) r) r := by
  have e : arrayPressure lam V (shearedBox d a b γ) j = fun r => _ := funext fun r => arrayPressure_grid hab hd γ lam V j r
  rw [e]
  exact (images_pd (spans_box hab hd γ) (fun y hy => nearPressure_pd lam j i hy) (nearPressure_quick hl j)
    (nearPressure'_quick hl j i) hr).add ((waves_pd (spans_dualBox hab hd γ) (fun k r => wavePressure_pd lam j i k r)
    (wavePressure_quick hl j) (wavePressure'_quick hl j i) r).const_mul _)

theorem arrayGreen_jet (V : ℝ) (i j : Fin 3) : IsJet (Off (shearedBox d a b γ)) (arrayGreen lam V (shearedBox d a b γ) i j)
    (fun l r => ∑' n, T1 (pJ lam) (qJ lam) i j l (fun m => r m + gridVec (shearedBox d a b γ) n m)
      + 1 / V * ∑' n, -(gridVec (dualBox d a b γ) n l * Real.sin (inner3 (gridVec (dualBox d a b γ) n) r)
        * waveJ lam i j (gridVec (dualBox d a b γ) n)))
    (fun m l r => ∑' n, T2 (pJ lam) (qJ lam) i j m l (fun m => r m + gridVec (shearedBox d a b γ) n m)
      + 1 / V * ∑' n, -(gridVec (dualBox d a b γ) n m * gridVec (dualBox d a b γ) n l
        * (Real.cos (inner3 (gridVec (dualBox d a b γ) n) r) * waveJ lam i j (gridVec (dualBox d a b γ) n))))
    (fun r => ∑' n, T0 (lapP (pJ lam) (qJ lam)) (lapQ (qJ lam)) i j (fun m => r m + gridVec (shearedBox d a b γ) n m)
      + 1 / V * ∑' n, -(len (gridVec (dualBox d a b γ) n) ^ 2
        * (Real.cos (inner3 (gridVec (dualBox d a b γ) n) r) * waveJ lam i j (gridVec (dualBox d a b γ) n))))
    (fun l r => ∑' n, T1 (lapP (pJ lam) (qJ lam)) (lapQ (qJ lam)) i j l (fun m => r m + gridVec (shearedBox d a b γ) n m)
      + 1 / V * ∑' n, len (gridVec (dualBox d a b γ) n) ^ 2 * (gridVec (dualBox d a b γ) n l
        * Real.sin (inner3 (gridVec (dualBox d a b γ) n) r) * waveJ lam i j (gridVec (dualBox d a b γ) n)))
    (fun m l r => ∑' n, T2 (lapP (pJ lam) (qJ lam)) (lapQ (qJ lam)) i j m l (fun m => r m + gridVec (shearedBox d a b γ) n m)
      + 1 / V * ∑' n, len (gridVec (dualBox d a b γ) n) ^ 2 * (gridVec (dualBox d a b γ) n m * gridVec (dualBox d a b γ) n l
        * (Real.cos (inner3 (gridVec (dualBox d a b γ) n) r) * waveJ lam i j (gridVec (dualBox d a b γ) n)))) := by
  have e : arrayGreen lam V (shearedBox d a b γ) i j = fun r => _ := funext fun r => arrayGreen_grid hab hd γ lam V i j r
  rw [e]
  exact (nearJ_images hl (spans_box hab hd γ) i j).add
    (((waveJ_waves hl (spans_dualBox hab hd γ) i j).const_mul (1 / V)).mono (Set.subset_univ _))

theorem arrayGreen_div (V : ℝ) (j : Fin 3) {r : Vec3} (hr : r ∈ Off (shearedBox d a b γ)) :
    ∑ i, Spec.pd i (arrayGreen lam V (shearedBox d a b γ) i j) r = 0 := by
  have hB := spans_box hab hd γ
  have hK := spans_dualBox hab hd γ
  have t1 := (T_quick (pJ_quick hl) (qJ_quick hl)).2.1
  have q : ∀ i, Quick fun k : Vec3 × Vec3 => -(k.2 i * Real.sin (inner3 k.2 k.1) * waveJ lam i j k.2) := fun i =>
    (((mild_coord i).mul (mild_bounded fun _ => Real.abs_sin_le_one _)).mul_quick (waveJ_quick hl i j)).neg
  have h : ∀ i, Spec.pd i (arrayGreen lam V (shearedBox d a b γ) i j) r = _ := fun i =>
    HasPd.pd ((arrayGreen_jet hab hd γ hl V i j).one r hr i)
  simp only [h]
  rw [Finset.sum_add_distrib, ← Finset.mul_sum, ← Summable.tsum_finsetSum fun i _ => images_summable hB (t1 i j i) r,
    ← Summable.tsum_finsetSum fun i _ => waves_summable hK (F := fun k r => -(k i * Real.sin (inner3 k r) * waveJ lam i j k)) (q i) r]
  have e1 : ∀ g, ∑ i, T1 (pJ lam) (qJ lam) i j i (fun m => r m + gridVec (shearedBox d a b γ) g m) = 0 := fun g =>
    T1_div (scr lam) j _
  have e2 : ∀ k : Vec3, ∑ i, -(k i * Real.sin (inner3 k r) * waveJ lam i j k) = 0 := fun k => by
    have h := waveJ_div lam j k
    rw [Fin.sum_univ_three] at h ⊢
    linear_combination -Real.sin (inner3 k r) * h
  simp only [e1, e2, tsum_zero, mul_zero, add_zero]

theorem arrayGreen_balance (i j : Fin 3) {r : Vec3} (hr : r ∈ Off (shearedBox d a b γ)) :
    Spec.lap (arrayGreen lam (d 0 * d 1 * d 2) (shearedBox d a b γ) i j) r
      - Spec.pd i (arrayPressure lam (d 0 * d 1 * d 2) (shearedBox d a b γ) j) r = dlt i j * (8 * Real.pi / (d 0 * d 1 * d 2)) := by
  have hB := spans_box hab hd γ
  have hK := spans_dualBox hab hd γ
  rw [(arrayGreen_jet hab hd γ hl (d 0 * d 1 * d 2) i j).lap0 (isOpen_off hB) hr,
    (arrayPressure_pd hab hd γ hl (d 0 * d 1 * d 2) j i hr).pd]
  have u0 := (T_quick (lapP_quick hl) (lapQ_quick hl)).1 i j
  have hc : Mild fun k : Vec3 × Vec3 => Real.cos (inner3 k.2 k.1) := mild_bounded fun _ => Real.abs_cos_le_one _
  have q : Quick fun k : Vec3 × Vec3 => -(len k.2 ^ 2 * (Real.cos (inner3 k.2 k.1) * waveJ lam i j k.2)) :=
    (((mild_len).pow 2).mul_quick (hc.mul_quick (waveJ_quick hl i j))).neg
  have s1 := (images_summable hB u0 r).tsum_sub (images_summable hB (nearPressure'_quick hl j i) r)
  have s2 := (waves_summable hK (F := fun k r => -(len k ^ 2 * (Real.cos (inner3 k r) * waveJ lam i j k))) q r).tsum_sub
    (waves_summable hK (wavePressure'_quick hl j i) r)
  have e1 : ∀ y : Vec3, T0 (lapP (pJ lam) (qJ lam)) (lapQ (qJ lam)) i j y - nearPressure' lam j i y
      = dlt i j * bump 3 (bump 3 (scr lam)) 0 (len y) := by
    intro y
    have h1 := lapP_stokes (scr lam) 0 (len y)
    have h2 := lapQ_stokes (scr lam) 0 (len y)
    simp only [T0, nearPressure']
    rw [show lapP (pJ lam) (qJ lam) 0 (len y) = _ from h1, show lapQ (qJ lam) 0 (len y) = _ from h2, dlt_comm j i]
    simp only [pOf, qOf]
    rw [show bump 2 (bump 3 (scr lam)) 0 (len y) = 2 * bump 3 (scr lam) 1 (len y) + len y ^ 2 * bump 3 (scr lam) 2 (len y) by
        rw [bump]; simp,
      show bump 3 (bump 3 (scr lam)) 0 (len y) = 3 * bump 3 (scr lam) 1 (len y) + len y ^ 2 * bump 3 (scr lam) 2 (len y) by
        rw [bump]; simp]
    ring
  have e2 : ∀ k : Vec3, -(len k ^ 2 * (Real.cos (inner3 k r) * waveJ lam i j k)) - wavePressure' lam j i k r
      = -dlt i j * (Real.cos (inner3 k r) * waveFour lam k - if k = 0 then 8 * Real.pi else 0) := by
    intro k
    by_cases hk : k = 0
    · subst hk
      have l0 : len 0 = 0 := by unfold len; simp
      simp [wavePressure', waveFour_zero, inner3, l0]
    · have h0 : len k ≠ 0 := (len_pos hk).ne'
      rw [if_neg hk, waveJ_four, wavePressure']
      field_simp
      ring
  simp only [e1] at s1
  simp only [e2] at s2
  rw [tsum_mul_left, four_sum hab hd γ hl hr] at s1
  have hw : Summable fun g => Real.cos (inner3 (gridVec (dualBox d a b γ) g) r) * waveFour lam (gridVec (dualBox d a b γ) g) :=
    waves_summable hK (F := fun k r => Real.cos (inner3 k r) * waveFour lam k) (hc.mul_quick (waveFour_quick hl)) r
  have hz : ∀ g, (if gridVec (dualBox d a b γ) g = 0 then 8 * Real.pi else 0) = if g = 0 then 8 * Real.pi else 0 := by
    intro g
    by_cases hg : g = 0
    · rw [if_pos hg, hg, gridVec_zero, if_pos rfl]
    · rw [if_neg hg, if_neg fun e => hg (independent_of_spans hK _ e)]
  have hi : HasSum (fun g : Fin 3 → ℤ => if g = 0 then 8 * Real.pi else 0) (8 * Real.pi) := hasSum_ite_eq 0 _
  simp only [hz] at s2
  rw [tsum_mul_left, hw.tsum_sub hi.summable, hi.tsum_eq] at s2
  linear_combination -s1 - 1 / (d 0 * d 1 * d 2) * s2

theorem arrayGreen_point (V : ℝ) (i j : Fin 3) :
    ∃ w, Tendsto (fun r => arrayGreen lam V (shearedBox d a b γ) i j r - oseen i j r) (𝓝[≠] 0) (𝓝 w) := by
  have hB := spans_box hab hd γ
  have hK := spans_dualBox hab hd γ
  have hp := smoothChain_continuous lam
  obtain ⟨w1, h1⟩ := images_limit hB (f := T0 (pJ lam) (qJ lam) i j) (f0 := T0 (pOf freeChain) (qOf freeChain) i j)
    (f1 := fun y => -T0 (pOf (smoothChain lam)) (qOf (smoothChain lam)) i j y) ((T_quick (pJ_quick hl) (qJ_quick hl)).1 i j)
    (fun y hy => T0_continuousAt (pJ_chain lam) (qJ_chain lam) i j hy) (by
      simp only [T0, pOf, qOf, bump]
      have := fun n => (hp n).comp len_continuous
      simp only [Function.comp_def] at this
      have hlen := len_continuous
      fun_prop)
    (fun y _ => by simp only [T0, pJ, qJ, pOf, qOf, bump, scr]; ring)
  have hc : Mild fun k : Vec3 × Vec3 => Real.cos (inner3 k.2 k.1) := mild_bounded fun _ => Real.abs_cos_le_one _
  obtain ⟨w2, h2⟩ := waves_limit hK (F := fun k r => Real.cos (inner3 k r) * waveJ lam i j k) (hc.mul_quick (waveJ_quick hl i j))
    (fun k => by unfold inner3; fun_prop) (by funext r; simp [wave_zero])
  refine ⟨w1 + 1 / V * w2, (h1.add (h2.const_mul (1 / V))).congr' ?_⟩
  filter_upwards [self_mem_nhdsWithin, off_near hab hd γ] with r h0 hr
  rw [arrayGreen_grid hab hd, oseen_eq i j h0]
  have : ∀ g, nearJ lam i j (fun m => r m + gridVec (shearedBox d a b γ) g m) = _ := fun g => nearJ_eq lam i j (hr g)
  simp only [this]
  show _ = _ - T0 (pOf freeChain) (qOf freeChain) i j r
  ring

theorem arrayPressure_point (V : ℝ) (j : Fin 3) :
    ∃ w, Tendsto (fun r => arrayPressure lam V (shearedBox d a b γ) j r - 2 * r j / len r ^ 3) (𝓝[≠] 0) (𝓝 w) := by
  have hB := spans_box hab hd γ
  have hK := spans_dualBox hab hd γ
  have hp := smoothChain_continuous lam
  obtain ⟨w1, h1⟩ := images_limit hB (f := nearPressure lam j) (f0 := fun r => 2 * r j / len r ^ 3)
    (f1 := fun y => y j * bump 3 (smoothChain lam) 1 (len y)) (nearPressure_quick hl j)
    (fun y hy => continuousAt_const.mul ((continuous_apply j).continuousAt.mul (((scr_chain lam).bump 3).continuousAt 1 hy))) (by
      simp only [bump]
      have := fun n => (hp n).comp len_continuous
      simp only [Function.comp_def] at this
      have hlen := len_continuous
      fun_prop)
    (fun y hy => by
      have h0 : len y ≠ 0 := (len_pos hy).ne'
      simp only [nearPressure, bump, scr, freeChain, freeCoeff]
      push_cast
      field_simp
      ring)
  obtain ⟨w2, h2⟩ := waves_limit hK (F := fun k r => wavePressure lam j k r) (wavePressure_quick hl j)
    (fun k => by unfold wavePressure inner3; fun_prop) (by funext r; simp [wavePressure])
  refine ⟨w1 + 1 / V * w2, (h1.add (h2.const_mul (1 / V))).congr fun r => ?_⟩
  rw [arrayPressure_grid hab hd]
  ring

end

end

end SD.Ewald
