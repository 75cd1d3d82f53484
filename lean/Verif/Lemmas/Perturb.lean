import Verif.Lemmas.GrandResistance
import Mathlib.Topology.Algebra.Module.FiniteDimension
import Mathlib.Topology.Instances.Matrix
import Mathlib.Algebra.BigOperators.Field

/-!
# Matrices that tend to a positive definite one
-/

set_option autoImplicit false

namespace SD.Perturb

open Spec Filter Topology Finset

/-- A positive definite form is bounded below by a multiple of the square. -/
theorem coercive {M : ℕ → ℕ → ℝ} {n : ℕ} (h : PosDef M n) : ∃ c > 0, ∀ w : ℕ → ℝ,
    c * ∑ i ∈ range n, w i ^ 2 ≤ ∑ i ∈ range n, ∑ j ∈ range n, w i * M i j * w j := by
  let Q : (Fin n → ℝ) → ℝ := fun v => ∑ i : Fin n, ∑ j : Fin n, v i * M i j * v j
  let S : (Fin n → ℝ) → ℝ := fun v => ∑ i, v i ^ 2
  have hQc : Continuous Q := by
    refine continuous_finsetSum _ fun i _ => continuous_finsetSum _ fun j _ => ?_
    fun_prop
  have hSc : Continuous S := by
    refine continuous_finsetSum _ fun i _ => ?_
    fun_prop
  have toFin : ∀ w : ℕ → ℝ, Q (fun i => w i) = ∑ i ∈ range n, ∑ j ∈ range n, w i * M i j * w j ∧
      S (fun i => w i) = ∑ i ∈ range n, w i ^ 2 := by
    intro w
    refine ⟨?_, Fin.sum_univ_eq_sum_range (fun i => w i ^ 2) n⟩
    rw [← Fin.sum_univ_eq_sum_range (fun i => ∑ j ∈ range n, w i * M i j * w j) n]
    exact Finset.sum_congr rfl fun i _ => Fin.sum_univ_eq_sum_range (fun j => w i * M i j * w j) n
  have hpos : ∀ v : Fin n → ℝ, v ≠ 0 → 0 < Q v := by
    intro v hv
    obtain ⟨i, hi⟩ := Function.ne_iff.mp hv
    let w : ℕ → ℝ := fun i => if h : i < n then v ⟨i, h⟩ else 0
    have hw : (fun i : Fin n => w i) = v := by funext i; simp [w]
    have := h w ⟨i, i.2, by simpa [w] using hi⟩
    rwa [← (toFin w).1, hw] at this
  have hcomp : IsCompact {v : Fin n → ℝ | S v = 1} := by
    refine (isCompact_closedBall (0 : Fin n → ℝ) 1).of_isClosed_subset (isClosed_eq hSc continuous_const) ?_
    intro v hv
    rw [mem_closedBall_zero_iff, pi_norm_le_iff_of_nonneg zero_le_one]
    intro i
    have h1 : v i ^ 2 ≤ S v := Finset.single_le_sum (f := fun i => v i ^ 2) (fun j _ => sq_nonneg _) (Finset.mem_univ i)
    rw [show S v = 1 from hv] at h1
    rw [Real.norm_eq_abs]
    exact abs_le_one_iff_mul_self_le_one.mpr (by nlinarith)
  have key : ∃ c > 0, ∀ v, S v = 1 → c ≤ Q v := by
    rcases Set.eq_empty_or_nonempty {v : Fin n → ℝ | S v = 1} with he | hne
    · exact ⟨1, one_pos, fun v hv => absurd (show v ∈ {v : Fin n → ℝ | S v = 1} from hv) (by rw [he]; simp)⟩
    · obtain ⟨v0, hv0, hmin⟩ := hcomp.exists_isMinOn hne hQc.continuousOn
      refine ⟨Q v0, hpos v0 ?_, fun v hv => hmin hv⟩
      rintro rfl
      have : S 0 = 1 := hv0
      simp [S] at this
  obtain ⟨c, hc, hk⟩ := key
  refine ⟨c, hc, fun w => ?_⟩
  rw [← (toFin w).1, ← (toFin w).2]
  generalize (fun i : Fin n => w i) = v
  rcases eq_or_ne v 0 with rfl | hv
  · simp [Q, S]
  · have hs : 0 < S v := by
      obtain ⟨i, hi⟩ := Function.ne_iff.mp hv
      exact Finset.sum_pos' (fun j _ => sq_nonneg _) ⟨i, Finset.mem_univ i, by
        have : v i ≠ 0 := hi
        positivity⟩
    have hr : 0 < Real.sqrt (S v) := Real.sqrt_pos.mpr hs
    have hsq := Real.sq_sqrt hs.le
    have h1 : S (fun i => v i / Real.sqrt (S v)) = 1 := by
      show ∑ i, (v i / Real.sqrt (S v)) ^ 2 = 1
      simp only [div_pow, hsq]
      rw [← Finset.sum_div]
      exact div_self hs.ne'
    have h2 : Q (fun i => v i / Real.sqrt (S v)) = Q v / S v := by
      show ∑ i : Fin n, ∑ j : Fin n, v i / Real.sqrt (S v) * M i j * (v j / Real.sqrt (S v)) = _
      rw [Finset.sum_div]
      refine Finset.sum_congr rfl fun i _ => ?_
      rw [Finset.sum_div]
      refine Finset.sum_congr rfl fun j _ => ?_
      conv_rhs => rw [← hsq]
      field_simp
    have := hk _ h1
    rw [h2, le_div_iff₀ hs] at this
    exact this

section
variable {β : Type} {F : Filter β} {A : β → ℕ → ℕ → ℝ} {B : ℕ → ℕ → ℝ} {n : ℕ}
  (h : ∀ i < n, ∀ j < n, Tendsto (fun t => A t i j) F (𝓝 (B i j)))
include h

/-- The sum of the errors of all entries tends to zero. -/
theorem error_tendsto : Tendsto (fun t => ∑ i ∈ range n, ∑ j ∈ range n, |A t i j - B i j|) F (𝓝 0) := by
  rw [show (0 : ℝ) = ∑ i ∈ range n, ∑ j ∈ range n, |B i j - B i j| by simp]
  exact tendsto_finsetSum _ fun i hi => tendsto_finsetSum _ fun j hj =>
    ((h i (mem_range.mp hi) j (mem_range.mp hj)).sub_const _).abs

omit h in
theorem sum_error_le (D : ℕ → ℕ → ℝ) {x y : ℕ → ℝ} {s : ℝ} (hs : ∀ i < n, ∀ j < n, |x i| * |y j| ≤ s) :
    |∑ i ∈ range n, ∑ j ∈ range n, x i * D i j * y j| ≤ (∑ i ∈ range n, ∑ j ∈ range n, |D i j|) * s := by
  rw [Finset.sum_mul]
  refine (Finset.abs_sum_le_sum_abs _ _).trans (Finset.sum_le_sum fun i hi => ?_)
  rw [Finset.sum_mul]
  refine (Finset.abs_sum_le_sum_abs _ _).trans (Finset.sum_le_sum fun j hj => ?_)
  rw [abs_mul, abs_mul]
  have := hs i (mem_range.mp hi) j (mem_range.mp hj)
  nlinarith [abs_nonneg (D i j)]

omit h in
theorem sq_le_total (w : ℕ → ℝ) {i : ℕ} (hi : i < n) : w i ^ 2 ≤ ∑ i ∈ range n, w i ^ 2 :=
  Finset.single_le_sum (f := fun i => w i ^ 2) (fun _ _ => sq_nonneg _) (mem_range.mpr hi)

theorem posDef_eventually (hp : PosDef B n) : ∀ᶠ t in F, PosDef (A t) n := by
  obtain ⟨c, hc, hq⟩ := coercive hp
  filter_upwards [(error_tendsto h).eventually (gt_mem_nhds hc)] with t ht w hw
  have hs : 0 < ∑ i ∈ range n, w i ^ 2 := by
    obtain ⟨i, hi, hne⟩ := hw
    exact Finset.sum_pos' (fun j _ => sq_nonneg _) ⟨i, mem_range.mpr hi, by positivity⟩
  have h1 := sum_error_le (n := n) (fun i j => A t i j - B i j) (x := w) (y := w) (s := ∑ i ∈ range n, w i ^ 2)
    fun i hi j hj => by
      have := sq_le_total w hi
      have := sq_le_total w hj
      nlinarith [sq_abs (w i), sq_abs (w j), sq_nonneg (|w i| - |w j|)]
  have e : ∑ i ∈ range n, ∑ j ∈ range n, w i * A t i j * w j
      = ∑ i ∈ range n, ∑ j ∈ range n, w i * B i j * w j
        + ∑ i ∈ range n, ∑ j ∈ range n, w i * (A t i j - B i j) * w j := by
    simp only [← Finset.sum_add_distrib]
    exact Finset.sum_congr rfl fun i _ => Finset.sum_congr rfl fun j _ => by ring
  have h2 := hq w
  have h3 := (abs_le.mp h1).1
  rw [e]
  nlinarith

/-- Two mixed problems with the same prescribed values: the solutions tend to each other. -/
theorem solution_tendsto (hp : PosDef B n) {v : β → ℕ → ℝ} {v0 : ℕ → ℝ}
    (hv : ∀ᶠ t in F, ∀ i < n, (v t i - v0 i) * (mulVec n (A t) (v t) i - mulVec n B v0 i) = 0) :
    (∀ i < n, Tendsto (fun t => v t i) F (𝓝 (v0 i))) ∧
    ∀ i < n, Tendsto (fun t => mulVec n (A t) (v t) i) F (𝓝 (mulVec n B v0 i)) := by
  obtain ⟨c, hc, hq⟩ := coercive hp
  have key : Tendsto (fun t => ∑ i ∈ range n, (v t i - v0 i) ^ 2) F (𝓝 0) := by
    have hE := error_tendsto h
    set E := fun t => ∑ i ∈ range n, ∑ j ∈ range n, |A t i j - B i j| with hEd
    set s0 := ∑ i ∈ range n, v0 i ^ 2 with hs0
    have hup : Tendsto (fun t => 2 * E t * s0 / c) F (𝓝 0) := by
      have := ((hE.const_mul 2).mul_const s0).div_const c
      simpa using this
    refine tendsto_of_tendsto_of_tendsto_of_le_of_le' tendsto_const_nhds hup
      (Eventually.of_forall fun t => Finset.sum_nonneg fun i _ => sq_nonneg _) ?_
    filter_upwards [hv, hE.eventually (gt_mem_nhds (show (0 : ℝ) < c / 3 by positivity))] with t ht hEt
    set e : ℕ → ℝ := fun i => v t i - v0 i with he
    set s := ∑ i ∈ range n, e i ^ 2 with hs
    have hsn : 0 ≤ s := Finset.sum_nonneg fun i _ => sq_nonneg _
    have hs0n : 0 ≤ s0 := Finset.sum_nonneg fun i _ => sq_nonneg _
    have hEn : 0 ≤ E t := Finset.sum_nonneg fun i _ => Finset.sum_nonneg fun j _ => abs_nonneg _
    have h1 := sum_error_le (n := n) (fun i j => A t i j - B i j) (x := e) (y := v t) (s := (3 * s + 2 * s0) / 2)
      fun i hi j hj => by
        have a1 := sq_le_total e hi
        have a2 := sq_le_total e hj
        have a3 := sq_le_total v0 hj
        have a4 : v t j = e j + v0 j := by simp [he]
        have a5 : v t j ^ 2 ≤ 2 * e j ^ 2 + 2 * v0 j ^ 2 := by rw [a4]; nlinarith [sq_nonneg (e j - v0 j)]
        nlinarith [sq_abs (e i), sq_abs (v t j), sq_nonneg (|e i| - |v t j|)]
    have h2 := hq e
    have h3 : ∑ i ∈ range n, ∑ j ∈ range n, e i * B i j * e j
        = -∑ i ∈ range n, ∑ j ∈ range n, e i * (A t i j - B i j) * v t j := by
      have h4 : ∑ i ∈ range n, e i * (mulVec n (A t) (v t) i - mulVec n B v0 i) = 0 :=
        Finset.sum_eq_zero fun i hi => ht i (mem_range.mp hi)
      have h5 : ∑ i ∈ range n, e i * (mulVec n (A t) (v t) i - mulVec n B v0 i)
          = ∑ i ∈ range n, ∑ j ∈ range n, e i * B i j * e j
            + ∑ i ∈ range n, ∑ j ∈ range n, e i * (A t i j - B i j) * v t j := by
        simp only [← Finset.sum_add_distrib]
        refine Finset.sum_congr rfl fun i _ => ?_
        unfold mulVec
        rw [← Finset.sum_sub_distrib, Finset.mul_sum]
        refine Finset.sum_congr rfl fun j _ => ?_
        have : v0 j = v t j - e j := by simp [he]
        rw [this]; ring
      linarith
    have h6 := (abs_le.mp h1).1
    have h7 : c * s ≤ E t * ((3 * s + 2 * s0) / 2) := by
      have : (∑ i ∈ range n, ∑ j ∈ range n, |A t i j - B i j|) = E t := rfl
      rw [this] at h6
      linarith
    show s ≤ 2 * E t * s0 / c
    rw [le_div_iff₀ hc]
    nlinarith
  have hc1 : ∀ i < n, Tendsto (fun t => v t i) F (𝓝 (v0 i)) := by
    intro i hi
    have h1 : Tendsto (fun t => (v t i - v0 i) ^ 2) F (𝓝 0) :=
      tendsto_of_tendsto_of_tendsto_of_le_of_le tendsto_const_nhds key (fun t => sq_nonneg _)
        fun t => sq_le_total (fun i => v t i - v0 i) hi
    have h2 : Tendsto (fun t => |v t i - v0 i|) F (𝓝 0) := by
      have := h1.sqrt
      simpa [Real.sqrt_sq_eq_abs] using this
    have h3 := (tendsto_zero_iff_abs_tendsto_zero _).mpr h2
    simpa using h3.add_const (v0 i)
  refine ⟨hc1, fun i hi => ?_⟩
  unfold mulVec
  exact tendsto_finsetSum _ fun j hj => (h i hi j (mem_range.mp hj)).mul (hc1 j (mem_range.mp hj))

end

theorem form_eq (M : ℕ → ℕ → ℝ) (n : ℕ) (w : ℕ → ℝ) :
    ∑ i ∈ range n, ∑ j ∈ range n, w i * M i j * w j = ∑ i ∈ range n, w i * mulVec n M w i := by
  unfold mulVec
  simp only [Finset.mul_sum, mul_assoc]

/-- A positive definite matrix has a positive definite inverse. -/
theorem inverse_posDef {M : NDMat} {n : ℕ} (hr : M.rows = n) (hc : M.cols = n) (hp : PosDef M.get n) :
    ∃ C, M.inv = some C ∧ C.rows = n ∧ C.cols = n ∧ PosDef C.get n := by
  have hM : ∀ w : ℕ → ℝ, (∃ i < n, w i ≠ 0) → 0 < ∑ i ∈ range n, w i * mulVec n M.get w i := fun w hw => by
    rw [← form_eq]; exact hp w hw
  obtain ⟨C, hC⟩ := (inv_isSome (M := M) (hr.trans hc.symm)).mpr (by
    rw [hr]
    intro v hv i hi
    by_contra hne
    have := hM v ⟨i, hi, hne⟩
    rw [Finset.sum_eq_zero fun j hj => by rw [hv j (Finset.mem_range.mp hj), mul_zero]] at this
    exact lt_irrefl _ this)
  obtain ⟨-, e1, e2, -, -⟩ := NDMat.inv_some hC
  refine ⟨C, hC, e1.trans hr, e2.trans hr, fun w ⟨i, hi, hne⟩ => ?_⟩
  rw [form_eq]
  have hinv : ∀ j < n, mulVec n M.get (mulVec n C.get w) j = w j := by
    intro j hj
    have := (inv_mulVec hC w (i := j) (by rw [hr]; exact hj)).2
    rwa [hr] at this
  have := hM (mulVec n C.get w) (by
    by_contra hc
    push Not at hc
    apply hne
    rw [← hinv i hi]
    unfold mulVec
    exact Finset.sum_eq_zero fun j hj => by
      have := hc j (Finset.mem_range.mp hj)
      unfold mulVec at this
      rw [this, mul_zero])
  refine lt_of_lt_of_eq this ?_
  refine Finset.sum_congr rfl fun j hj => ?_
  rw [hinv j (Finset.mem_range.mp hj), mul_comm]

/-- The entries of an inverse. -/
theorem inv_entry {M C : NDMat} {n : ℕ} (hr : M.rows = n) (h : M.inv = some C) (i j : Fin n) :
    C.get i j = (Matrix.of fun a b : Fin n => M.get a b)⁻¹ i j := by
  subst hr
  unfold NDMat.inv at h
  split_ifs at h with hc
  obtain rfl := Option.some.inj h
  exact dif_pos ⟨i.2, j.2⟩

theorem inv_det {M : NDMat} {n : ℕ} (hr : M.rows = n) (hc : M.cols = n) :
    (∃ C, M.inv = some C) ↔ (Matrix.of fun a b : Fin n => M.get a b).det ≠ 0 := by
  subst hr
  unfold NDMat.inv
  have e : M.toMatrix = Matrix.of fun a b : Fin M.rows => M.get a b := rfl
  rw [← e]
  by_cases h : M.toMatrix.det ≠ 0
  · rw [if_pos ⟨hc.symm, h⟩]; exact ⟨fun _ => h, fun _ => ⟨_, rfl⟩⟩
  · rw [if_neg fun h' => h h'.2]; exact ⟨fun ⟨C, h'⟩ => by simp at h', fun h' => absurd h' h⟩

/-- If matrices tend to one that has an inverse, then so do the inverses. -/
theorem inv_tendsto {β : Type} {F : Filter β} {M : β → NDMat} {M0 C0 : NDMat} {n : ℕ}
    (hd : ∀ t, (M t).rows = n ∧ (M t).cols = n) (h0 : M0.rows = n ∧ M0.cols = n)
    (h : ∀ i < n, ∀ j < n, Tendsto (fun t => (M t).get i j) F (𝓝 (M0.get i j))) (hC : M0.inv = some C0) :
    ∃ C : β → NDMat, (∀ᶠ t in F, (M t).inv = some (C t)) ∧
      ∀ i < n, ∀ j < n, Tendsto (fun t => (C t).get i j) F (𝓝 (C0.get i j)) := by
  let A : β → Matrix (Fin n) (Fin n) ℝ := fun t => Matrix.of fun a b => (M t).get a b
  let A0 : Matrix (Fin n) (Fin n) ℝ := Matrix.of fun a b => M0.get a b
  have hA : Tendsto A F (𝓝 A0) := tendsto_pi_nhds.mpr fun a => tendsto_pi_nhds.mpr fun b => h a a.2 b b.2
  have hdet0 : A0.det ≠ 0 := (inv_det h0.1 h0.2).mp ⟨C0, hC⟩
  have hdet : Tendsto (fun t => (A t).det) F (𝓝 A0.det) := (continuous_id.matrix_det.tendsto A0).comp hA
  have hadj : Tendsto (fun t => (A t).adjugate) F (𝓝 A0.adjugate) := (continuous_id.matrix_adjugate.tendsto A0).comp hA
  have hinv : Tendsto (fun t => (A t)⁻¹) F (𝓝 A0⁻¹) := by
    simp only [Matrix.inv_def, Ring.inverse_eq_inv']
    exact (hdet.inv₀ hdet0).smul hadj
  have hex : ∀ᶠ t in F, ∃ C, (M t).inv = some C := by
    filter_upwards [hdet.eventually (isOpen_ne.mem_nhds hdet0)] with t ht
    exact (inv_det (hd t).1 (hd t).2).mpr ht
  have hch : ∀ t, ∃ C, (∃ C', (M t).inv = some C') → (M t).inv = some C := by
    intro t
    by_cases hc : ∃ C', (M t).inv = some C'
    · exact ⟨hc.choose, fun _ => hc.choose_spec⟩
    · exact ⟨M0, fun h => absurd h hc⟩
  choose C hC' using hch
  refine ⟨C, hex.mono fun t ht => hC' t ht, fun i hi j hj => ?_⟩
  have h1 : Tendsto (fun t => (A t)⁻¹ ⟨i, hi⟩ ⟨j, hj⟩) F (𝓝 (A0⁻¹ ⟨i, hi⟩ ⟨j, hj⟩)) :=
    ((continuous_apply_apply (⟨i, hi⟩ : Fin n) (⟨j, hj⟩ : Fin n)).tendsto _).comp hinv
  rw [inv_entry h0.1 hC ⟨i, hi⟩ ⟨j, hj⟩]
  refine h1.congr' ?_
  filter_upwards [hex] with t ht
  exact (inv_entry (hd t).1 (hC' t ht) ⟨i, hi⟩ ⟨j, hj⟩).symm

/-- Cauchy and Schwarz for a form. -/
theorem form_le (D : ℕ → ℕ → ℝ) (n : ℕ) (x y : ℕ → ℝ) :
    |∑ i ∈ range n, ∑ j ∈ range n, x i * D i j * y j|
      ≤ Real.sqrt (∑ i ∈ range n, ∑ j ∈ range n, D i j ^ 2)
        * (Real.sqrt (∑ i ∈ range n, x i ^ 2) * Real.sqrt (∑ i ∈ range n, y i ^ 2)) := by
  have h := Finset.sum_mul_sq_le_sq_mul_sq (range n ×ˢ range n) (fun p => D p.1 p.2) (fun p => x p.1 * y p.2)
  simp only [Finset.sum_product] at h
  have e1 : ∑ i ∈ range n, ∑ j ∈ range n, D i j * (x i * y j) = ∑ i ∈ range n, ∑ j ∈ range n, x i * D i j * y j :=
    Finset.sum_congr rfl fun i _ => Finset.sum_congr rfl fun j _ => by ring
  have e2 : ∑ i ∈ range n, ∑ j ∈ range n, (x i * y j) ^ 2 = (∑ i ∈ range n, x i ^ 2) * ∑ i ∈ range n, y i ^ 2 := by
    rw [Finset.sum_mul_sum]
    exact Finset.sum_congr rfl fun i _ => Finset.sum_congr rfl fun j _ => by ring
  rw [e1, e2] at h
  rw [← Real.sqrt_mul (Finset.sum_nonneg fun i _ => sq_nonneg _),
    ← Real.sqrt_mul (Finset.sum_nonneg fun i _ => Finset.sum_nonneg fun j _ => sq_nonneg _)]
  exact Real.abs_le_sqrt h

/-- Two mixed problems with the same prescribed values: how far apart the solutions are. -/
theorem solution_bound {A B : ℕ → ℕ → ℝ} {n : ℕ} {c : ℝ}
    (hq : ∀ w : ℕ → ℝ, c * ∑ i ∈ range n, w i ^ 2 ≤ ∑ i ∈ range n, ∑ j ∈ range n, w i * B i j * w j)
    {v v0 : ℕ → ℝ} (hv : ∀ i < n, (v i - v0 i) * (mulVec n A v i - mulVec n B v0 i) = 0) :
    c * Real.sqrt (∑ i ∈ range n, (v i - v0 i) ^ 2)
      ≤ Real.sqrt (∑ i ∈ range n, ∑ j ∈ range n, (A i j - B i j) ^ 2) * Real.sqrt (∑ i ∈ range n, v i ^ 2) := by
  set e : ℕ → ℝ := fun i => v i - v0 i with he
  set s := ∑ i ∈ range n, e i ^ 2 with hs
  have hsn : 0 ≤ s := Finset.sum_nonneg fun i _ => sq_nonneg _
  have h1 := form_le (fun i j => A i j - B i j) n e v
  have h2 := hq e
  have h4 : ∑ i ∈ range n, e i * (mulVec n A v i - mulVec n B v0 i) = 0 :=
    Finset.sum_eq_zero fun i hi => hv i (mem_range.mp hi)
  have h5 : ∑ i ∈ range n, e i * (mulVec n A v i - mulVec n B v0 i)
      = ∑ i ∈ range n, ∑ j ∈ range n, e i * B i j * e j
        + ∑ i ∈ range n, ∑ j ∈ range n, e i * (A i j - B i j) * v j := by
    simp only [← Finset.sum_add_distrib]
    refine Finset.sum_congr rfl fun i _ => ?_
    unfold mulVec
    rw [← Finset.sum_sub_distrib, Finset.mul_sum]
    refine Finset.sum_congr rfl fun j _ => ?_
    have : v0 j = v j - e j := by simp [he]
    rw [this]; ring
  have h6 := (abs_le.mp h1).1
  show c * Real.sqrt s ≤ _
  have h7 : c * s ≤ Real.sqrt (∑ i ∈ range n, ∑ j ∈ range n, (A i j - B i j) ^ 2)
      * (Real.sqrt s * Real.sqrt (∑ i ∈ range n, v i ^ 2)) := by linarith
  rcases hsn.eq_or_lt with h0 | h0
  · rw [← h0, Real.sqrt_zero, mul_zero]
    positivity
  · have hr : 0 < Real.sqrt s := Real.sqrt_pos.mpr h0
    have hsq := Real.mul_self_sqrt hsn
    refine le_of_mul_le_mul_right ?_ hr
    rw [mul_assoc, hsq]
    exact h7.trans_eq (by ring)

/-- A form close enough to one bounded below is positive definite. -/
theorem posDef_near {A B : ℕ → ℕ → ℝ} {n : ℕ} {c : ℝ}
    (hq : ∀ w : ℕ → ℝ, c * ∑ i ∈ range n, w i ^ 2 ≤ ∑ i ∈ range n, ∑ j ∈ range n, w i * B i j * w j)
    (h : Real.sqrt (∑ i ∈ range n, ∑ j ∈ range n, (A i j - B i j) ^ 2) < c) : PosDef A n := by
  intro w ⟨i, hi, hne⟩
  have hs : 0 < ∑ i ∈ range n, w i ^ 2 :=
    Finset.sum_pos' (fun j _ => sq_nonneg _) ⟨i, mem_range.mpr hi, by positivity⟩
  have h1 := form_le (fun i j => A i j - B i j) n w w
  rw [Real.mul_self_sqrt hs.le] at h1
  have e : ∑ i ∈ range n, ∑ j ∈ range n, w i * A i j * w j
      = ∑ i ∈ range n, ∑ j ∈ range n, w i * B i j * w j
        + ∑ i ∈ range n, ∑ j ∈ range n, w i * (A i j - B i j) * w j := by
    simp only [← Finset.sum_add_distrib]
    exact Finset.sum_congr rfl fun i _ => Finset.sum_congr rfl fun j _ => by ring
  have h2 := hq w
  have h3 := (abs_le.mp h1).1
  rw [e]
  nlinarith

end SD.Perturb
