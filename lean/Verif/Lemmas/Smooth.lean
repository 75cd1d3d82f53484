import Verif.Lemmas.Green
import Mathlib.Analysis.Calculus.Deriv.Pi

/-!
# Partial derivatives of functions smooth off the origin
-/

set_option autoImplicit false

namespace SD

open Spec
open scoped ContDiff

/-- Smooth away from the origin. -/
def Sm (f : Vec3 → ℝ) : Prop := ∀ r, r ≠ 0 → ContDiffAt ℝ ∞ f r

theorem pd_eq_fderiv {f : Vec3 → ℝ} {r : Vec3} (h : DifferentiableAt ℝ f r) (l : Fin 3) :
    pd l f r = fderiv ℝ f r (Pi.single l 1) := by
  unfold pd
  have h1 : HasDerivAt (fun t => Function.update r l t) (Pi.single l 1) (r l) :=
    hasDerivAt_update r l (r l)
  have h2 : HasFDerivAt f (fderiv ℝ f r) (Function.update r l (r l)) := by
    rw [Function.update_eq_self]; exact h.hasFDerivAt
  exact (h2.comp_hasDerivAt (r l) h1).deriv

theorem Sm.diff {f : Vec3 → ℝ} (h : Sm f) {r : Vec3} (hr : r ≠ 0) : DifferentiableAt ℝ f r :=
  (h r hr).differentiableAt (by simp)

theorem Sm.congr {f g : Vec3 → ℝ} (hf : Sm f) (h : ∀ r, r ≠ 0 → g r = f r) : Sm g := by
  intro r hr
  refine (hf r hr).congr_of_eventuallyEq ?_
  filter_upwards [isOpen_ne.mem_nhds hr] with t ht using h t ht

theorem Sm.pd {f : Vec3 → ℝ} (h : Sm f) (l : Fin 3) : Sm (pd l f) := by
  have h1 : Sm fun r => fderiv ℝ f r (Pi.single l 1) := by
    intro r hr
    exact ((h r hr).fderiv_right (m := ∞) (by simp)).clm_apply contDiffAt_const
  exact h1.congr fun r hr => pd_eq_fderiv (h.diff hr) l

theorem Sm.add {f g : Vec3 → ℝ} (hf : Sm f) (hg : Sm g) : Sm fun r => f r + g r :=
  fun r hr => (hf r hr).add (hg r hr)

theorem Sm.const_mul {f : Vec3 → ℝ} (c : ℝ) (hf : Sm f) : Sm fun r => c * f r :=
  fun r hr => contDiffAt_const.mul (hf r hr)

theorem Sm.sum {ι : Type*} {f : ι → Vec3 → ℝ} (s : Finset ι) (h : ∀ i ∈ s, Sm (f i)) :
    Sm fun r => ∑ i ∈ s, f i r :=
  fun r hr => ContDiffAt.sum fun i hi => h i hi r hr

theorem Sm.lap {f : Vec3 → ℝ} (h : Sm f) : Sm (lap f) :=
  Sm.sum _ fun l _ => (h.pd l).pd l

theorem pd_add {f g : Vec3 → ℝ} {r : Vec3} (hf : DifferentiableAt ℝ f r)
    (hg : DifferentiableAt ℝ g r) (l : Fin 3) :
    pd l (fun r => f r + g r) r = pd l f r + pd l g r := by
  rw [pd_eq_fderiv (hf.fun_add hg), pd_eq_fderiv hf, pd_eq_fderiv hg, fderiv_fun_add hf hg]; rfl

theorem pd_const_mul {f : Vec3 → ℝ} {r : Vec3} (c : ℝ) (hf : DifferentiableAt ℝ f r)
    (l : Fin 3) : pd l (fun r => c * f r) r = c * pd l f r := by
  rw [pd_eq_fderiv (hf.const_mul c), pd_eq_fderiv hf, fderiv_const_mul hf]; rfl

theorem pd_sum {ι : Type*} {f : ι → Vec3 → ℝ} {r : Vec3} (s : Finset ι)
    (h : ∀ i ∈ s, DifferentiableAt ℝ (f i) r) (l : Fin 3) :
    pd l (fun r => ∑ i ∈ s, f i r) r = ∑ i ∈ s, pd l (f i) r := by
  rw [pd_eq_fderiv (DifferentiableAt.fun_sum h), fderiv_fun_sum h, _root_.sum_apply]
  exact Finset.sum_congr rfl fun i hi => (pd_eq_fderiv (h i hi) l).symm

theorem pd_zero (l : Fin 3) (r : Vec3) : pd l (fun _ => 0) r = 0 := by
  unfold pd; simp

theorem pd_comm {f : Vec3 → ℝ} (h : Sm f) (k l : Fin 3) {r : Vec3} (hr : r ≠ 0) :
    pd k (pd l f) r = pd l (pd k f) r := by
  have hd : DifferentiableAt ℝ (fderiv ℝ f) r :=
    ((h r hr).fderiv_right (m := ∞) (by simp)).differentiableAt (by simp)
  have e : ∀ m n : Fin 3, pd m (pd n f) r
      = fderiv ℝ (fderiv ℝ f) r (Pi.single m 1) (Pi.single n 1) := by
    intro m n
    rw [pd_congr (g := fun r => fderiv ℝ f r (Pi.single n 1))
      (fun r hr => pd_eq_fderiv (h.diff hr) n) hr,
      pd_eq_fderiv (hd.clm_apply (differentiableAt_const _)),
      fderiv_clm_apply hd (differentiableAt_const _)]
    simp
  rw [e, e]
  have := (h r hr).isSymmSndFDerivAt (by
    rw [minSmoothness_of_isRCLikeNormedField]; exact WithTop.coe_le_coe.mpr (le_top : (2 : ℕ∞) ≤ ⊤))
  exact this.eq _ _

theorem lap_congr {f g : Vec3 → ℝ} (h : ∀ r, r ≠ 0 → f r = g r) {r : Vec3} (hr : r ≠ 0) :
    lap f r = lap g r := by
  unfold lap
  refine Finset.sum_congr rfl fun l _ => ?_
  exact pd_congr (fun r hr => pd_congr h hr l) hr l

theorem lap_pd {f : Vec3 → ℝ} (h : Sm f) (k : Fin 3) {r : Vec3} (hr : r ≠ 0) :
    lap (pd k f) r = pd k (lap f) r := by
  have e : lap f = fun r => ∑ l, pd l (pd l f) r := rfl
  rw [e, pd_sum _ (fun l _ => ((h.pd l).pd l).diff hr)]
  unfold lap
  refine Finset.sum_congr rfl fun l _ => ?_
  rw [pd_congr (g := pd k (pd l f)) (fun r hr => pd_comm h l k hr) hr, pd_comm (h.pd l) l k hr]

theorem lap_add {f g : Vec3 → ℝ} (hf : Sm f) (hg : Sm g) {r : Vec3} (hr : r ≠ 0) :
    lap (fun r => f r + g r) r = lap f r + lap g r := by
  unfold lap
  rw [← Finset.sum_add_distrib]
  refine Finset.sum_congr rfl fun l _ => ?_
  rw [pd_congr (g := fun r => pd l f r + pd l g r)
    (fun r hr => pd_add (hf.diff hr) (hg.diff hr) l) hr,
    pd_add ((hf.pd l).diff hr) ((hg.pd l).diff hr)]

theorem lap_const_mul {f : Vec3 → ℝ} (c : ℝ) (hf : Sm f) {r : Vec3} (hr : r ≠ 0) :
    lap (fun r => c * f r) r = c * lap f r := by
  unfold lap
  rw [Finset.mul_sum]
  refine Finset.sum_congr rfl fun l _ => ?_
  rw [pd_congr (g := fun r => c * pd l f r) (fun r hr => pd_const_mul c (hf.diff hr) l) hr,
    pd_const_mul c ((hf.pd l).diff hr)]

theorem lap_sum {ι : Type*} {f : ι → Vec3 → ℝ} (s : Finset ι) (h : ∀ i ∈ s, Sm (f i)) {r : Vec3}
    (hr : r ≠ 0) : lap (fun r => ∑ i ∈ s, f i r) r = ∑ i ∈ s, lap (f i) r := by
  classical
  induction s using Finset.induction_on with
  | empty => simp [lap, pd]
  | insert a s ha ih =>
    simp only [Finset.sum_insert ha]
    rw [lap_add (h a (by simp)) (Sm.sum _ fun i hi => h i (by simp [hi])) hr,
      ih fun i hi => h i (by simp [hi])]

theorem oseen_sm (i j : Fin 3) : Sm (oseen i j) := by
  intro r hr
  have h0 := len_pos hr
  have hl : ContDiffAt ℝ ∞ len r := by
    unfold len
    apply ContDiffAt.sqrt
    · exact ContDiffAt.sum fun i _ => (contDiff_apply ℝ ℝ i).contDiffAt.pow 2
    · exact (sumsq_pos hr).ne'
  unfold oseen
  apply ContDiffAt.add
  · exact contDiffAt_const.div hl h0.ne'
  · exact ((contDiff_apply ℝ ℝ i).contDiffAt.mul (contDiff_apply ℝ ℝ j).contDiffAt).div
      (hl.pow 3) (by positivity)

/-! ## The closed forms are the derivatives -/

theorem pd_oseen {r : Vec3} (h : r ≠ 0) (l i j : Fin 3) :
    pd l (oseen i j) r = D_J r (len r) l i j := (oseen_deriv h l i j).deriv

theorem pd_pd_oseen {r : Vec3} (h : r ≠ 0) (m l i j : Fin 3) :
    pd m (pd l (oseen i j)) r = DD_J r (len r) m l i j := by
  rw [pd_congr (g := fun r => D_J r (len r) l i j) (fun r hr => pd_oseen hr l i j) h]
  exact (D_J_deriv h m l i j).deriv

theorem lap_oseen {r : Vec3} (h : r ≠ 0) (i j : Fin 3) :
    lap (oseen i j) r = Lap_J (r i) (r j) i j (len r) := by
  unfold lap
  simp only [pd_pd_oseen h]
  have hs := len_pos h
  have h2 := len_sq r
  have e : ∀ (x y u v : Fin 3), kronkron x y u v = kron x y * kron u v := by
    intro x y u v; unfold kronkron kron; split_ifs <;> simp
  simp only [DD_J, Lap_J, e, Fin.sum_univ_three]
  have h4 : len r ^ 5 = len r ^ 3 * (r 0 ^ 2 + r 1 ^ 2 + r 2 ^ 2) := by rw [← h2]; ring
  have h7 : len r ^ 7 = len r ^ 5 * (r 0 ^ 2 + r 1 ^ 2 + r 2 ^ 2) := by rw [← h2]; ring
  fin_cases i <;> fin_cases j <;> simp [kron] <;> field_simp <;> rw [h2] <;> ring

theorem pd_lap_oseen {r : Vec3} (h : r ≠ 0) (k i j : Fin 3) :
    pd k (lap (oseen i j)) r = DLap_J r (len r) k i j := by
  rw [pd_congr (g := fun r => Lap_J (r i) (r j) i j (len r)) (fun r hr => lap_oseen hr i j) h]
  exact (LapJ_deriv h k i j).deriv

theorem pd_pd_lap_oseen {r : Vec3} (h : r ≠ 0) (l k i j : Fin 3) :
    pd l (pd k (lap (oseen i j))) r = DLap_K r (len r) l k i j := by
  rw [pd_congr (g := fun r => DLap_J r (len r) k i j) (fun r hr => pd_lap_oseen hr k i j) h]
  exact (DLapJ_deriv h l k i j).deriv

theorem lap_lap_oseen {r : Vec3} (h : r ≠ 0) (i j : Fin 3) : lap (lap (oseen i j)) r = 0 := by
  rw [show lap (lap (oseen i j)) r = ∑ l, pd l (pd l (lap (oseen i j))) r from rfl]
  simp only [pd_pd_lap_oseen h]
  have hs := len_pos h
  have h2 := len_sq r
  have e : ∀ (x y u v : Fin 3), kronkron x y u v = kron x y * kron u v := by
    intro x y u v; unfold kronkron kron; split_ifs <;> simp
  simp only [DLap_K, e, Fin.sum_univ_three]
  fin_cases i <;> fin_cases j <;> simp [kron] <;> field_simp <;>
    (try rw [show len r ^ 4 = (len r ^ 2) ^ 2 by ring]) <;> rw [h2] <;> ring

theorem oseen_div {r : Vec3} (h : r ≠ 0) (j : Fin 3) : ∑ i, pd i (oseen i j) r = 0 := by
  simp only [pd_oseen h]
  have hs := len_pos h
  have h2 := len_sq r
  simp only [D_J, Fin.sum_univ_three]
  fin_cases j <;> simp [kron] <;> field_simp <;> rw [h2] <;> ring

end SD
