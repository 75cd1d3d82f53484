import Verif.Lemmas.EwaldSelf
import Mathlib.MeasureTheory.Integral.IntegralEqImproper
import Mathlib.MeasureTheory.Integral.ExpDecay
import Mathlib.Analysis.SpecialFunctions.ImproperIntegrals
import Mathlib.Analysis.Calculus.Deriv.Polynomial
import Mathlib.Analysis.SpecialFunctions.Exponential

/-!
# The terms of the lattice sums decay faster than any power
-/

set_option autoImplicit false

namespace SD.Ewald

open Spec MeasureTheory Filter Topology

/-- Decays faster than any power of the length of a vector, whatever the parameter. -/
def Quick {β : Type} (f : β × Vec3 → ℝ) : Prop := ∀ p : ℕ, ∃ C, ∀ y, 1 ≤ len y.2 → |f y| ≤ C / len y.2 ^ p

/-- Grows no faster than some power of the length. -/
def Mild {β : Type} (f : β × Vec3 → ℝ) : Prop := ∃ (q : ℕ) (C : ℝ), ∀ y, 1 ≤ len y.2 → |f y| ≤ C * len y.2 ^ q

section
variable {β : Type}

theorem Quick.add {f g : β × Vec3 → ℝ} (hf : Quick f) (hg : Quick g) : Quick fun y => f y + g y := by
  intro p
  obtain ⟨C, hC⟩ := hf p
  obtain ⟨D, hD⟩ := hg p
  refine ⟨C + D, fun y hy => ?_⟩
  rw [add_div]
  exact (abs_add_le _ _).trans (add_le_add (hC y hy) (hD y hy))

theorem Mild.mul_quick {f g : β × Vec3 → ℝ} (hf : Mild f) (hg : Quick g) : Quick fun y => f y * g y := by
  intro p
  obtain ⟨q, C, hC⟩ := hf
  obtain ⟨D, hD⟩ := hg (p + q)
  refine ⟨C * D, fun y hy => ?_⟩
  have hpos : 0 < len y.2 := by linarith
  have h1 := hC y hy
  have h2 := hD y hy
  rw [abs_mul]
  have := mul_le_mul h1 h2 (abs_nonneg _) ((abs_nonneg _).trans h1)
  refine this.trans (le_of_eq ?_)
  rw [pow_add]
  field_simp

theorem Mild.mul {f g : β × Vec3 → ℝ} (hf : Mild f) (hg : Mild g) : Mild fun y => f y * g y := by
  obtain ⟨q, C, hC⟩ := hf
  obtain ⟨q', D, hD⟩ := hg
  refine ⟨q + q', C * D, fun y hy => ?_⟩
  have h1 := hC y hy
  have h2 := hD y hy
  rw [abs_mul, pow_add]
  refine (mul_le_mul h1 h2 (abs_nonneg _) ((abs_nonneg _).trans h1)).trans (le_of_eq (by ring))

theorem Mild.add {f g : β × Vec3 → ℝ} (hf : Mild f) (hg : Mild g) : Mild fun y => f y + g y := by
  obtain ⟨q, C, hC⟩ := hf
  obtain ⟨q', D, hD⟩ := hg
  refine ⟨q + q', |C| + |D|, fun y hy => ?_⟩
  have h1 := hC y hy
  have h2 := hD y hy
  have a1 : len y.2 ^ q ≤ len y.2 ^ (q + q') := pow_le_pow_right₀ hy (by omega)
  have a2 : len y.2 ^ q' ≤ len y.2 ^ (q + q') := pow_le_pow_right₀ hy (by omega)
  have b1 : C * len y.2 ^ q ≤ |C| * len y.2 ^ (q + q') :=
    mul_le_mul (le_abs_self C) a1 (by positivity) (abs_nonneg _)
  have b2 : D * len y.2 ^ q' ≤ |D| * len y.2 ^ (q + q') :=
    mul_le_mul (le_abs_self D) a2 (by positivity) (abs_nonneg _)
  have := abs_add_le (f y) (g y)
  rw [add_mul]
  linarith

theorem mild_const (c : ℝ) : Mild fun _ : β × Vec3 => c := ⟨0, |c|, fun y _ => by simp⟩

theorem abs_le_len (y : Vec3) (i : Fin 3) : |y i| ≤ len y := by
  unfold len
  exact Real.abs_le_sqrt (Finset.single_le_sum (f := fun i => y i ^ 2) (fun _ _ => sq_nonneg _) (Finset.mem_univ i))

theorem mild_coord (i : Fin 3) : Mild fun y : β × Vec3 => y.2 i := ⟨1, 1, fun y _ => by simpa using abs_le_len y.2 i⟩

theorem mild_len : Mild fun y : β × Vec3 => len y.2 := ⟨1, 1, fun y hy => by rw [abs_of_nonneg (by linarith)]; simp⟩

theorem mild_inv_len (m : ℕ) : Mild fun y : β × Vec3 => (len y.2 ^ m)⁻¹ := by
  refine ⟨0, 1, fun y hy => ?_⟩
  rw [abs_of_nonneg (by positivity), pow_zero, mul_one]
  exact inv_le_one_of_one_le₀ (one_le_pow₀ hy)

theorem Mild.pow {f : β × Vec3 → ℝ} (hf : Mild f) (n : ℕ) : Mild fun y => f y ^ n := by
  induction n with
  | zero => simpa using mild_const 1
  | succ n ih => simpa only [pow_succ] using ih.mul hf

theorem mild_poly (p : Polynomial ℝ) : Mild fun y : β × Vec3 => p.eval (len y.2) := by
  induction p using Polynomial.induction_on' with
  | add p q hp hq => simpa only [Polynomial.eval_add] using hp.add hq
  | monomial n c => simpa only [Polynomial.eval_monomial] using (mild_const c).mul (mild_len.pow n)

theorem Quick.const_mul {f : β × Vec3 → ℝ} (hf : Quick f) (c : ℝ) : Quick fun y => c * f y := (mild_const c).mul_quick hf

theorem Quick.neg {f : β × Vec3 → ℝ} (hf : Quick f) : Quick fun y => -f y := by
  simpa only [neg_one_mul] using hf.const_mul (-1)

theorem Quick.congr {f g : β × Vec3 → ℝ} (hf : Quick f) (h : ∀ y, 1 ≤ len y.2 → g y = f y) : Quick g := fun p => by
  obtain ⟨C, hC⟩ := hf p
  exact ⟨C, fun y hy => by rw [h y hy]; exact hC y hy⟩

theorem quick_zero : Quick fun _ : β × Vec3 => 0 := fun p => ⟨0, fun y _ => by simp⟩

theorem Quick.sum {ι : Type*} (s : Finset ι) {f : ι → β × Vec3 → ℝ} (h : ∀ x ∈ s, Quick (f x)) :
    Quick fun y => ∑ x ∈ s, f x y := by
  classical
  induction s using Finset.induction_on with
  | empty => simpa using quick_zero
  | insert a s ha ih =>
    simp only [Finset.sum_insert ha]
    exact (h a (by simp)).add (ih fun x hx => h x (by simp [hx]))

/-! ## The Gaussian and the error function -/

theorem gauss_quick {c : ℝ} (hc : 0 < c) : Quick fun y : β × Vec3 => Real.exp (-(c * len y.2 ^ 2)) := by
  intro p
  refine ⟨p.factorial / c ^ p, fun y hy => ?_⟩
  have hpos : 0 < len y.2 := by linarith
  have hx : 0 < c * len y.2 ^ 2 := by positivity
  have h := Real.pow_div_factorial_le_exp (c * len y.2 ^ 2) hx.le p
  rw [abs_of_pos (Real.exp_pos _), Real.exp_neg]
  have h1 : 0 < (c * len y.2 ^ 2) ^ p / (p.factorial : ℝ) := by positivity
  refine (inv_anti₀ h1 h).trans ?_
  rw [inv_div, mul_pow, ← div_div]
  refine div_le_div_of_nonneg_left (by positivity) (by positivity) ?_
  rw [← pow_mul]
  exact pow_le_pow_right₀ hy (by omega)

theorem cerf_le {x : ℝ} (hx : 0 < x) : cerf x ≤ 2 / Real.sqrt Real.pi * (Real.exp (-(x * x)) / x) := by
  unfold cerf
  have hp : 0 < 2 / Real.sqrt Real.pi := by positivity
  refine mul_le_mul_of_nonneg_left ?_ hp.le
  have h := integral_exp_mul_Ioi (a := -x) (by linarith) x
  have e : Real.exp (-(x * x)) / x = ∫ t in Set.Ioi x, Real.exp (-x * t) := by
    rw [h, neg_mul, neg_div_neg_eq]
  rw [e]
  refine setIntegral_mono_on gauss_integrable.integrableOn ?_ measurableSet_Ioi fun t ht => ?_
  · exact integrableOn_exp_mul_Ioi (by linarith) x
  · refine Real.exp_le_exp.mpr ?_
    have : x < t := ht
    nlinarith

theorem cerf_nonneg (x : ℝ) : 0 ≤ cerf x := by
  unfold cerf
  exact mul_nonneg (by positivity) (integral_nonneg fun t => (Real.exp_pos _).le)

theorem erfc_quick {lamb : ℝ} (hl : 0 < lamb) : Quick fun y : β × Vec3 => erfc (lamb * len y.2) := by
  have h0 := (gauss_quick (β := β) (c := lamb ^ 2) (by positivity)).const_mul (2 / Real.sqrt Real.pi / lamb)
  intro p
  obtain ⟨C, hC⟩ := h0 p
  refine ⟨C, fun y hy => ?_⟩
  have hpos : 0 < len y.2 := by linarith
  show |erfc (lamb * len y.2)| ≤ _
  rw [erfc_eq_cerf, abs_of_nonneg (cerf_nonneg _)]
  refine (cerf_le (mul_pos hl hpos)).trans (le_trans ?_ ((le_abs_self _).trans (hC y hy)))
  rw [show lamb * len y.2 * (lamb * len y.2) = lamb ^ 2 * len y.2 ^ 2 by ring]
  have : (2 / Real.sqrt Real.pi) * (Real.exp (-(lamb ^ 2 * len y.2 ^ 2)) / (lamb * len y.2))
      = (2 / Real.sqrt Real.pi / lamb * Real.exp (-(lamb ^ 2 * len y.2 ^ 2))) / len y.2 := by field_simp
  rw [this]
  exact div_le_self (by positivity) hy

/-! ## The chain of the screened distance -/

/-- Every member of the chain is a combination of the error function and the Gaussian with rational coefficients. -/
theorem scr_form (lamb : ℝ) (n : ℕ) : ∃ (p q : Polynomial ℝ) (m : ℕ), ∀ s, 0 < s →
    scr lamb n s = (p.eval s * erfc (lamb * s) + q.eval s * Real.exp (-(lamb ^ 2 * s ^ 2))) * (s ^ m)⁻¹ := by
  induction n with
  | zero => exact ⟨Polynomial.X, 0, 0, fun s hs => by rw [scr_zero]; simp⟩
  | succ n ih =>
    obtain ⟨p, q, m, h⟩ := ih
    let p' := p.derivative * Polynomial.X - Polynomial.C (m : ℝ) * p
    let q' := Polynomial.C (-(2 * lamb / Real.sqrt Real.pi)) * p * Polynomial.X + q.derivative * Polynomial.X
        - Polynomial.C (2 * lamb ^ 2) * q * Polynomial.X ^ 2 - Polynomial.C (m : ℝ) * q
    refine ⟨p', q', m + 2, ?_⟩
    intro s hs
    refine ((scr_chain lamb).step (c' := fun s => (p'.eval s * erfc (lamb * s)
      + q'.eval s * Real.exp (-(lamb ^ 2 * s ^ 2))) * (s ^ (m + 2))⁻¹) (fun t ht => (h t ht).symm) (fun t ht => ?_) s hs).symm
    have hE : HasDerivAt (fun s => erfc (lamb * s)) (-(2 * lamb / Real.sqrt Real.pi) * Real.exp (-(lamb ^ 2 * t ^ 2))) t := by
      have h0 : HasDerivAt (fun s : ℝ => lamb * s) lamb t := by simpa using (hasDerivAt_id t).const_mul lamb
      refine hd_congr ((erfc_deriv (lamb * t)).comp t h0) (fun _ => rfl) ?_
      rw [show -(lamb * t) ^ 2 = -(lamb ^ 2 * t ^ 2) by ring]
      ring
    have hG : HasDerivAt (fun s => Real.exp (-(lamb ^ 2 * s ^ 2))) (-(2 * lamb ^ 2 * t) * Real.exp (-(lamb ^ 2 * t ^ 2))) t := by
      have h1 := ((((hasDerivAt_id t).fun_pow 2).const_mul (lamb ^ 2)).fun_neg).exp
      refine hd_congr h1 (fun _ => rfl) ?_
      simp
      ring
    have h1 := (((p.hasDerivAt t).fun_mul hE).fun_add ((q.hasDerivAt t).fun_mul hG)).fun_mul (inv_pow_hd m ht)
    refine hd_congr h1 (fun _ => rfl) ?_
    simp only [p', q', Polynomial.eval_add, Polynomial.eval_sub, Polynomial.eval_mul, Polynomial.eval_C, Polynomial.eval_X,
      Polynomial.eval_pow]
    rw [pow_add, pow_add]
    field_simp
    ring

theorem scr_quick {lamb : ℝ} (hl : 0 < lamb) (n : ℕ) : Quick fun y : β × Vec3 => scr lamb n (len y.2) := by
  obtain ⟨p, q, m, h⟩ := scr_form lamb n
  have h1 := (mild_inv_len (β := β) m).mul_quick (((mild_poly p).mul_quick (erfc_quick hl)).add
    ((mild_poly q).mul_quick (gauss_quick (c := lamb ^ 2) (by positivity))))
  refine h1.congr fun y hy => ?_
  rw [h _ (by linarith)]
  ring

/-! ## Responses -/

theorem respVal_quick {G0 : β × Vec3 → Fin 3 → Fin 3 → ℝ} {G1 : β × Vec3 → Fin 3 → Fin 3 → Fin 3 → ℝ}
    {G2 : β × Vec3 → Fin 3 → Fin 3 → Fin 3 → Fin 3 → ℝ} (h0 : ∀ i j, Quick fun y : β × Vec3 => G0 y i j)
    (h1 : ∀ i j l, Quick fun y : β × Vec3 => G1 y i j l) (h2 : ∀ i j m l, Quick fun y : β × Vec3 => G2 y i j m l) (l1 l2 : Load) :
    Quick fun y : β × Vec3 => respVal (G0 y) (G1 y) (G2 y) l1 l2 := by
  cases l1 with
  | force i =>
    cases l2 with
    | force j => exact h0 i j
    | torque j => exact (Quick.sum _ fun k _ => Quick.sum _ fun l _ => (h1 i l k).const_mul _).const_mul _
    | stress j k => exact ((h1 i j k).add (h1 i k j)).const_mul _
  | torque i =>
    cases l2 with
    | force j => exact (Quick.sum _ fun k _ => Quick.sum _ fun l _ => (h1 l j k).const_mul _).const_mul _
    | torque j => exact (Quick.sum _ fun k _ => Quick.sum _ fun l _ =>
        (Quick.const_mul (Quick.sum _ fun m _ => Quick.sum _ fun n _ => (h2 l n k m).const_mul _) _).const_mul _).const_mul _
    | stress j k => exact (Quick.sum _ fun m _ => Quick.sum _ fun l _ =>
        (((h2 l j m k).add (h2 l k m j)).const_mul _).const_mul _).const_mul _
  | stress i j =>
    cases l2 with
    | force k => exact ((h1 i k j).add (h1 j k i)).const_mul _
    | torque k => exact (((Quick.sum _ fun m _ => Quick.sum _ fun n _ => (h2 i n j m).const_mul _).const_mul _).add
        ((Quick.sum _ fun m _ => Quick.sum _ fun n _ => (h2 j n i m).const_mul _).const_mul _)).const_mul _
    | stress k l => exact ((((h2 i k j l).add (h2 i l j k)).const_mul _).add
        (((h2 j k i l).add (h2 j l i k)).const_mul _)).const_mul _

theorem chainResp_quick {g : ℕ → ℝ → ℝ} (hg : ∀ n, Quick fun y : β × Vec3 => g n (len y.2)) (a b : ℝ) (l1 l2 : Load) :
    Quick fun y : β × Vec3 => chainResp g a b l1 l2 y.2 := by
  have hc := mild_coord (β := β)
  have hl2 := (mild_len (β := β)).pow 2
  have hp : ∀ n, Quick fun y : β × Vec3 => pOf g n (len y.2) := fun n => by
    unfold pOf bump
    exact ((hg (n + 1)).const_mul _).add (hl2.mul_quick (hg (n + 2)))
  have hq : ∀ n, Quick fun y : β × Vec3 => qOf g n (len y.2) := fun n => (hg (n + 2)).neg
  have hP : ∀ n, Quick fun y : β × Vec3 => lapP (pOf g) (qOf g) n (len y.2) := fun n => by
    unfold lapP bump
    exact (((hp (n + 1)).const_mul _).add (hl2.mul_quick (hp (n + 2)))).add ((hq n).const_mul _)
  have hQ : ∀ n, Quick fun y : β × Vec3 => lapQ (qOf g) n (len y.2) := fun n => by
    unfold lapQ bump
    exact ((hq (n + 1)).const_mul _).add (hl2.mul_quick (hq (n + 2)))
  have t : ∀ (p q : ℕ → ℝ → ℝ), (∀ n, Quick fun y : β × Vec3 => p n (len y.2)) → (∀ n, Quick fun y : β × Vec3 => q n (len y.2)) →
      (∀ i j, Quick fun y : β × Vec3 => T0 p q i j y.2) ∧ (∀ i j l, Quick fun y : β × Vec3 => T1 p q i j l y.2) ∧ (∀ i j m l, Quick fun y : β × Vec3 => T2 p q i j m l y.2) := by
    intro p q hp hq
    refine ⟨fun i j => ?_, fun i j l => ?_, fun i j m l => ?_⟩
    · exact ((hp 0).const_mul _).add (((hc i).mul (hc j)).mul_quick (hq 0))
    · exact ((((hc l).mul_quick (hp 1)).const_mul _).add
        ((((mild_const _).mul (hc j)).add ((mild_const _).mul (hc i))).mul_quick (hq 0))).add
        ((((hc i).mul (hc j)).mul (hc l)).mul_quick (hq 1))
    · refine ((((((hp 1).const_mul _).add (((hc l).mul (hc m)).mul_quick (hp 2))).const_mul _).add
        ((hq 0).const_mul _)).add (Mild.mul_quick ?_ (hq 1))).add
        (((((hc i).mul (hc j)).mul (hc l)).mul (hc m)).mul_quick (hq 2))
      exact (((((((mild_const _).mul (hc j)).mul (hc m)).add (((mild_const _).mul (hc i)).mul (hc m))).add
        (((mild_const _).mul (hc j)).mul (hc l))).add (((mild_const _).mul (hc i)).mul (hc l))).add
        (((mild_const _).mul (hc i)).mul (hc j)))
  obtain ⟨t0, t1, t2⟩ := t _ _ hp hq
  obtain ⟨u0, u1, u2⟩ := t _ _ hP hQ
  unfold chainResp
  exact (respVal_quick t0 t1 t2 l1 l2).add ((respVal_quick u0 u1 u2 l1 l2).const_mul _)

theorem nearResp_quick {lamb : ℝ} (hl : 0 < lamb) (a b : ℝ) (l1 l2 : Load) : Quick fun y : β × Vec3 => nearResp lamb a b l1 l2 y.2 :=
  chainResp_quick (scr_quick hl) a b l1 l2

theorem mild_bounded {f : β × Vec3 → ℝ} {c : ℝ} (h : ∀ y, |f y| ≤ c) : Mild f := ⟨0, c, fun y _ => by simpa using h y⟩

theorem waveJ_quick {lamb : ℝ} (hl : 0 < lamb) (i j : Fin 3) : Quick fun k : β × Vec3 => waveJ lamb i j k.2 := by
  have hG := gauss_quick (β := β) (c := 1 / (4 * lamb ^ 2)) (by positivity)
  have hi := mild_inv_len (β := β) 2
  have m1 : Mild fun k : β × Vec3 => dlt i j + -1 * (k.2 i * k.2 j * (len k.2 ^ 2)⁻¹) :=
    (mild_const _).add ((mild_const _).mul (((mild_coord i).mul (mild_coord j)).mul hi))
  have m2 : Mild fun k : β × Vec3 => 8 * Real.pi * (len k.2 ^ 2)⁻¹
      * (1 + (len k.2 ^ 2 * (4 * lamb ^ 2)⁻¹ + len k.2 ^ 4 * (8 * lamb ^ 4)⁻¹)) :=
    ((mild_const _).mul hi).mul ((mild_const _).add (((mild_len.pow 2).mul (mild_const _)).add
      ((mild_len.pow 4).mul (mild_const _))))
  refine (m1.mul_quick (m2.mul_quick hG)).congr fun k _ => ?_
  unfold waveJ
  rw [show -(len k.2 ^ 2 / (4 * lamb ^ 2)) = -(1 / (4 * lamb ^ 2) * len k.2 ^ 2) by ring]
  simp only [div_eq_mul_inv]
  ring

/-- The responses through the waves decay rapidly, at the same rate for all displacements. -/
theorem waveResp_quick {lamb : ℝ} (hl : 0 < lamb) (a b : ℝ) (l1 l2 : Load) :
    Quick fun k : Vec3 × Vec3 => waveResp lamb a b l1 l2 k.1 k.2 := by
  have hJ := fun i j => waveJ_quick (β := Vec3) hl i j
  have hc : Mild fun k : Vec3 × Vec3 => Real.cos (inner3 k.2 k.1) := mild_bounded fun _ => Real.abs_cos_le_one _
  have hs : Mild fun k : Vec3 × Vec3 => Real.sin (inner3 k.2 k.1) := mild_bounded fun _ => Real.abs_sin_le_one _
  have hk := mild_coord (β := Vec3)
  have hl2 := (mild_len (β := Vec3)).pow 2
  have a0 := fun i j => hc.mul_quick (hJ i j)
  have a1 := fun i j l => ((hk l).mul hs).mul_quick (hJ i j)
  have a2 := fun i j m l => ((hk m).mul (hk l)).mul_quick (a0 i j)
  unfold waveResp
  exact (respVal_quick a0 (fun i j l => (a1 i j l).neg) (fun i j m l => (a2 i j m l).neg) l1 l2).add
    ((respVal_quick (fun i j => (hl2.mul_quick (a0 i j)).neg) (fun i j l => hl2.mul_quick (a1 i j l))
      (fun i j m l => hl2.mul_quick (a2 i j m l)) l1 l2).const_mul _)

end

end SD.Ewald
