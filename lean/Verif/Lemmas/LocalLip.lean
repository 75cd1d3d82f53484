import Mathlib.Analysis.Calculus.ContDiff.RCLike
import Mathlib.Analysis.Calculus.ContDiff.Operations
import Mathlib.Topology.MetricSpace.Lipschitz
import Mathlib.LinearAlgebra.Matrix.NonsingularInverse

/-!
# Functions that are Lipschitz near a point
-/

set_option autoImplicit false

namespace SD.Lip

open Filter Topology

variable {α β γ : Type*} [PseudoMetricSpace α] [PseudoMetricSpace β] [PseudoMetricSpace γ]

/-- Lipschitz near `x`. -/
def LL (f : α → β) (x : α) : Prop := ∃ K, ∃ t ∈ 𝓝 x, LipschitzOnWith K f t

theorem LL.continuousAt {f : α → β} {x : α} (h : LL f x) : ContinuousAt f x := by
  obtain ⟨K, t, ht, hf⟩ := h
  exact hf.continuousOn.continuousAt ht

theorem LL.const (b : β) (x : α) : LL (fun _ : α => b) x := ⟨0, Set.univ, univ_mem, (LipschitzWith.const b).lipschitzOnWith⟩

theorem LL.congr {f g : α → β} {x : α} (h : LL f x) (e : f =ᶠ[𝓝 x] g) : LL g x := by
  obtain ⟨K, t, ht, hf⟩ := h
  refine ⟨K, t ∩ {y | f y = g y}, inter_mem ht e, fun y hy z hz => ?_⟩
  rw [← show f y = g y from hy.2, ← show f z = g z from hz.2]
  exact hf hy.1 hz.1

theorem LL.comp {g : β → γ} {f : α → β} {x : α} (hg : LL g (f x)) (hf : LL f x) : LL (fun y => g (f y)) x := by
  have hc := hf.continuousAt
  obtain ⟨K, t, ht, hf⟩ := hf
  obtain ⟨K', t', ht', hg⟩ := hg
  exact ⟨K' * K, t ∩ f ⁻¹' t', inter_mem ht (hc ht'), hg.comp (hf.mono Set.inter_subset_left) fun y hy => hy.2⟩

theorem LL.prodMk {f : α → β} {g : α → γ} {x : α} (hf : LL f x) (hg : LL g x) : LL (fun y => (f y, g y)) x := by
  obtain ⟨K, t, ht, hf⟩ := hf
  obtain ⟨K', t', ht', hg⟩ := hg
  exact ⟨max K K', t ∩ t', inter_mem ht ht', (hf.mono Set.inter_subset_left).prodMk (hg.mono Set.inter_subset_right)⟩

theorem LL.pi {ι : Type*} [Fintype ι] {f : α → ι → β} {x : α} (h : ∀ i, LL (fun y => f y i) x) : LL f x := by
  choose K t ht hf using h
  refine ⟨∑ i, K i, ⋂ i, t i, iInter_mem.mpr ht, LipschitzOnWith.of_dist_le_mul fun y hy z hz => ?_⟩
  rw [Set.mem_iInter] at hy hz
  refine (dist_pi_le_iff (by positivity)).mpr fun i => ((hf i).dist_le_mul y (hy i) z (hz i)).trans ?_
  refine mul_le_mul_of_nonneg_right ?_ dist_nonneg
  exact_mod_cast Finset.single_le_sum (f := K) (fun _ _ => zero_le) (Finset.mem_univ i)

theorem LL.id (x : α) : LL (fun y : α => y) x := ⟨1, Set.univ, univ_mem, LipschitzWith.id.lipschitzOnWith⟩

theorem LL.fst (x : α × β) : LL Prod.fst x := ⟨1, Set.univ, univ_mem, LipschitzWith.prod_fst.lipschitzOnWith⟩
theorem LL.snd (x : α × β) : LL Prod.snd x := ⟨1, Set.univ, univ_mem, LipschitzWith.prod_snd.lipschitzOnWith⟩

theorem LL.eval {ι : Type*} [Fintype ι] {f : α → ι → β} {x : α} (h : LL f x) (i : ι) : LL (fun y => f y i) x := by
  obtain ⟨K, t, ht, hf⟩ := h
  refine ⟨K, t, ht, LipschitzOnWith.of_dist_le_mul fun y hy z hz => ?_⟩
  exact (dist_le_pi_dist (f y) (f z) i).trans (hf.dist_le_mul y hy z hz)

section
variable {E F : Type*} [NormedAddCommGroup E] [NormedSpace ℝ E] [NormedAddCommGroup F] [NormedSpace ℝ F]

theorem LL.of_contDiff {f : E → F} {x : E} (h : ContDiffAt ℝ 1 f x) : LL f x := h.exists_lipschitzOnWith

end

variable {f g : α → ℝ} {x : α}

theorem LL.add (hf : LL f x) (hg : LL g x) : LL (fun y => f y + g y) x :=
  (LL.of_contDiff (f := fun p : ℝ × ℝ => p.1 + p.2) (x := (f x, g x)) (by fun_prop)).comp (f := fun y => (f y, g y)) (hf.prodMk hg)

theorem LL.sub (hf : LL f x) (hg : LL g x) : LL (fun y => f y - g y) x :=
  (LL.of_contDiff (f := fun p : ℝ × ℝ => p.1 - p.2) (x := (f x, g x)) (by fun_prop)).comp (f := fun y => (f y, g y)) (hf.prodMk hg)

theorem LL.mul (hf : LL f x) (hg : LL g x) : LL (fun y => f y * g y) x :=
  (LL.of_contDiff (f := fun p : ℝ × ℝ => p.1 * p.2) (x := (f x, g x)) (by fun_prop)).comp (f := fun y => (f y, g y)) (hf.prodMk hg)

theorem LL.neg (hf : LL f x) : LL (fun y => -f y) x :=
  (LL.of_contDiff (f := fun p : ℝ => -p) (x := f x) (by fun_prop)).comp hf

theorem LL.inv (hf : LL f x) (h : f x ≠ 0) : LL (fun y => (f y)⁻¹) x :=
  (LL.of_contDiff (f := fun p : ℝ => p⁻¹) (x := f x) (contDiffAt_inv ℝ h)).comp hf

theorem LL.div (hf : LL f x) (hg : LL g x) (h : g x ≠ 0) : LL (fun y => f y / g y) x := by
  simp only [div_eq_mul_inv]
  exact hf.mul (hg.inv h)

theorem LL.const_mul (c : ℝ) (hf : LL f x) : LL (fun y => c * f y) x := (LL.const c x).mul hf
theorem LL.mul_const (hf : LL f x) (c : ℝ) : LL (fun y => f y * c) x := hf.mul (LL.const c x)
theorem LL.add_const (hf : LL f x) (c : ℝ) : LL (fun y => f y + c) x := hf.add (LL.const c x)
theorem LL.sub_const (hf : LL f x) (c : ℝ) : LL (fun y => f y - c) x := hf.sub (LL.const c x)

theorem LL.max (hf : LL f x) (hg : LL g x) : LL (fun y => max (f y) (g y)) x := by
  obtain ⟨K, t, ht, hf⟩ := hf
  obtain ⟨K', t', ht', hg⟩ := hg
  refine ⟨K + K', t ∩ t', inter_mem ht ht', LipschitzOnWith.of_dist_le_mul fun y hy z hz => ?_⟩
  have h1 := hf.dist_le_mul y hy.1 z hz.1
  have h2 := hg.dist_le_mul y hy.2 z hz.2
  rw [Real.dist_eq] at *
  refine (abs_max_sub_max_le_max _ _ _ _).trans ?_
  push_cast
  rw [add_mul]
  exact max_le (h1.trans (le_add_of_nonneg_right (by positivity))) (h2.trans (le_add_of_nonneg_left (by positivity)))

theorem LL.sum {ι : Type*} (s : Finset ι) {f : ι → α → ℝ} (h : ∀ i ∈ s, LL (f i) x) :
    LL (fun y => ∑ i ∈ s, f i y) x := by
  classical
  induction s using Finset.induction_on with
  | empty => simpa using LL.const (0 : ℝ) x
  | insert a s ha ih =>
    simp only [Finset.sum_insert ha]
    exact (h a (Finset.mem_insert_self _ _)).add (ih fun i hi => h i (Finset.mem_insert_of_mem hi))

theorem LL.prod {ι : Type*} (s : Finset ι) {f : ι → α → ℝ} (h : ∀ i ∈ s, LL (f i) x) :
    LL (fun y => ∏ i ∈ s, f i y) x := by
  classical
  induction s using Finset.induction_on with
  | empty => simpa using LL.const (1 : ℝ) x
  | insert a s ha ih =>
    simp only [Finset.prod_insert ha]
    exact (h a (Finset.mem_insert_self _ _)).mul (ih fun i hi => h i (Finset.mem_insert_of_mem hi))

theorem LL.det {n : Type*} [Fintype n] [DecidableEq n] {A : α → Matrix n n ℝ} (h : ∀ i j, LL (fun y => A y i j) x) :
    LL (fun y => (A y).det) x := by
  simp only [Matrix.det_apply]
  refine LL.sum _ fun s _ => ?_
  simp only [Units.smul_def, zsmul_eq_mul]
  exact (LL.prod _ fun i _ => h _ _).const_mul _

theorem LL.matrix_inv {n : Type*} [Fintype n] [DecidableEq n] {A : α → Matrix n n ℝ} (h : ∀ i j, LL (fun y => A y i j) x)
    (hd : (A x).det ≠ 0) (i j : n) : LL (fun y => (A y)⁻¹ i j) x := by
  have e : ∀ y, (A y)⁻¹ i j = ((A y).det)⁻¹ * ((A y).updateRow j (Pi.single i 1)).det := by
    intro y
    rw [Matrix.inv_def, Ring.inverse_eq_inv', Matrix.smul_apply, Matrix.adjugate_apply, smul_eq_mul]
  simp only [e]
  refine ((LL.det h).inv hd).mul (LL.det fun a b => ?_)
  by_cases hj : a = j
  · subst hj
    simp only [Matrix.updateRow_self]
    exact LL.const _ _
  · simp only [Matrix.updateRow_ne hj]
    exact h a b

end SD.Lip
