import Verif.Spec.SolveStable
import Verif.Lemmas.Perturb
import Verif.Props.Solve

/-!
# C78: a small error in the resistance matrix makes a small error in the answer
-/

set_option autoImplicit false

namespace SD

open Spec Finset Filter Topology

theorem Solves.load {Ns Nd : ℕ} {R : NDMat} {out : Outputs} (h : Solves Ns Nd R out) {i : ℕ}
    (hi : i < 11 * Ns + 6 * Nd) :
    mulVec (11 * Ns + 6 * Nd) R.get (motion Ns Nd out) i = load Ns Nd out i := h.rel i hi

theorem agree_zero {form : InputForm} {Ns Nd : ℕ} {R R' : NDMat} {inp : Inputs} {out out' : Outputs}
    (hf : formAllowed form Ns) (hsz : Sized Ns Nd inp) (hr : R.rows = 11 * Ns + 6 * Nd)
    (hr' : R'.rows = 11 * Ns + 6 * Nd) (hS : Symm R.get (11 * Ns + 6 * Nd)) (hS' : Symm R'.get (11 * Ns + 6 * Nd))
    (h : solveForm form false Ns Nd R inp = some out) (h' : solveForm form false Ns Nd R' inp = some out') {i : ℕ}
    (hi : i < 11 * Ns + 6 * Nd) :
    (motion Ns Nd out' i - motion Ns Nd out i)
      * (mulVec (11 * Ns + 6 * Nd) R'.get (motion Ns Nd out') i
        - mulVec (11 * Ns + 6 * Nd) R.get (motion Ns Nd out) i) = 0 := by
  obtain ⟨s, e⟩ := solve_echo hf hsz hr hS h
  obtain ⟨s', e'⟩ := solve_echo hf hsz hr' hS' h'
  rw [Solves.load s hi, Solves.load s' hi]
  rcases echo_agree hf s' s e' e i hi with h1 | h1
  · rw [show motion Ns Nd out' i = motion Ns Nd out i from h1, sub_self, zero_mul]
  · rw [show load Ns Nd out' i = load Ns Nd out i from h1, sub_self, mul_zero]

/-- **C78** (bound). Solve the same input, of any form, with two symmetric resistance matrices. If every unit motion
takes at least the power `c` with one of them, the two motions differ by at most the distance of the matrices divided
by `c`, relative to the motion found with the other one. -/
theorem C78_bound {form : InputForm} {Ns Nd : ℕ} {R R' : NDMat} {inp : Inputs} {out out' : Outputs} {c : ℝ} (hc : 0 < c)
    (hf : formAllowed form Ns) (hsz : Sized Ns Nd inp) (hr : R.rows = 11 * Ns + 6 * Nd)
    (hr' : R'.rows = 11 * Ns + 6 * Nd) (hS : Symm R.get (11 * Ns + 6 * Nd)) (hS' : Symm R'.get (11 * Ns + 6 * Nd))
    (hR : Stiff c R.get (11 * Ns + 6 * Nd))
    (h : solveForm form false Ns Nd R inp = some out) (h' : solveForm form false Ns Nd R' inp = some out') :
    size (11 * Ns + 6 * Nd) (fun i => motion Ns Nd out' i - motion Ns Nd out i)
      ≤ apart (11 * Ns + 6 * Nd) R'.get R.get / c * size (11 * Ns + 6 * Nd) (motion Ns Nd out') := by
  have := Perturb.solution_bound hR fun i hi => agree_zero hf hsz hr hr' hS hS' h h' hi
  rw [div_mul_eq_mul_div, le_div_iff₀ hc, mul_comm]
  exact this

/-- **C78** (still solved). A symmetric matrix nearer than `c` to one with which every unit motion takes at least the
power `c` solves every complete input. -/
theorem C78_solved {form : InputForm} {Ns Nd : ℕ} {R R' : NDMat} {inp : Inputs} {c : ℝ}
    (hf : formAllowed form Ns) (hsz : Sized Ns Nd inp) (hC : Complete form Ns Nd inp)
    (hr' : R'.rows = 11 * Ns + 6 * Nd) (hc' : R'.cols = 11 * Ns + 6 * Nd) (hS' : Symm R'.get (11 * Ns + 6 * Nd))
    (hR : Stiff c R.get (11 * Ns + 6 * Nd)) (hnear : apart (11 * Ns + 6 * Nd) R'.get R.get < c) :
    ∃ out', solveForm form false Ns Nd R' inp = some out' :=
  C09_spd_succeeds hf hsz hr' hc' hS' (Perturb.posDef_near hR hnear) hC

/-- **C78** (stiffness). Every positive definite matrix has such a `c`. -/
theorem C78_stiff {M : ℕ → ℕ → ℝ} {n : ℕ} (h : PosDef M n) : ∃ c > 0, Stiff c M n := Perturb.coercive h

/-- **C78** (continuity). If symmetric matrices tend to a symmetric positive definite one, then from some point on
every complete input is solved with them, and the motions and loads tend to those found with the limit. -/
theorem C78_continuous {form : InputForm} {Ns Nd : ℕ} {inp : Inputs} {β : Type} {F : Filter β} {R : β → NDMat}
    {R0 : NDMat} {out0 : Outputs} (hf : formAllowed form Ns) (hsz : Sized Ns Nd inp)
    (hr : ∀ᶠ t in F, (R t).rows = 11 * Ns + 6 * Nd ∧ (R t).cols = 11 * Ns + 6 * Nd ∧
      Symm (R t).get (11 * Ns + 6 * Nd))
    (hr0 : R0.rows = 11 * Ns + 6 * Nd) (hS0 : Symm R0.get (11 * Ns + 6 * Nd))
    (hP0 : PosDef R0.get (11 * Ns + 6 * Nd))
    (hlim : ∀ i < 11 * Ns + 6 * Nd, ∀ j < 11 * Ns + 6 * Nd,
      Tendsto (fun t => (R t).get i j) F (𝓝 (R0.get i j)))
    (h0 : solveForm form false Ns Nd R0 inp = some out0) :
    ∃ out : β → Outputs, (∀ᶠ t in F, solveForm form false Ns Nd (R t) inp = some (out t)) ∧
      (∀ i < 11 * Ns + 6 * Nd, Tendsto (fun t => motion Ns Nd (out t) i) F (𝓝 (motion Ns Nd out0 i))) ∧
      ∀ i < 11 * Ns + 6 * Nd, Tendsto (fun t => load Ns Nd (out t) i) F (𝓝 (load Ns Nd out0 i)) := by
  have hC := C10_placeholders hsz h0
  have hex : ∀ᶠ t in F, ∃ out, solveForm form false Ns Nd (R t) inp = some out := by
    filter_upwards [hr, Perturb.posDef_eventually hlim hP0] with t ht hp
    exact C09_spd_succeeds hf hsz ht.1 ht.2.1 ht.2.2 hp hC
  have hch : ∀ t, ∃ out, (∃ o, solveForm form false Ns Nd (R t) inp = some o) →
      solveForm form false Ns Nd (R t) inp = some out := by
    intro t
    by_cases hc : ∃ o, solveForm form false Ns Nd (R t) inp = some o
    · exact ⟨hc.choose, fun _ => hc.choose_spec⟩
    · exact ⟨out0, fun h => absurd h hc⟩
  choose out hout using hch
  have hsol : ∀ᶠ t in F, solveForm form false Ns Nd (R t) inp = some (out t) := hex.mono fun t ht => hout t ht
  obtain ⟨h1, h2⟩ := Perturb.solution_tendsto hlim hP0 (v := fun t => motion Ns Nd (out t)) (v0 := motion Ns Nd out0) (by
    filter_upwards [hr, hsol] with t ht hs i hi
    exact agree_zero hf hsz hr0 ht.1 hS0 ht.2.2 h0 hs hi)
  refine ⟨out, hsol, h1, fun i hi => ?_⟩
  have h3 := h2 i hi
  rw [Solves.load (solve_echo hf hsz hr0 hS0 h0).1 hi] at h3
  refine h3.congr' ?_
  filter_upwards [hr, hsol] with t ht hs
  exact Solves.load (solve_echo hf hsz ht.1 ht.2.2 hs).1 hi

/-! ## Cases that meet the conditions -/

/-- The example matrix with one pair of entries off by `e`. -/
noncomputable def offR (n : ℕ) (e : ℝ) : NDMat :=
  ⟨n, n, fun i j => (demoR n).get i j + if i + j = 1 then e else 0⟩

theorem offR_symm (n : ℕ) (e : ℝ) : Symm (offR n e).get n := by
  intro i hi j hj
  simp only [offR]
  rw [demoR_symm n i hi j hj, add_comm i j]

theorem offR_apart {n : ℕ} (hn : 2 ≤ n) (e : ℝ) : apart n (offR n e).get (demoR n).get = Real.sqrt (2 * e ^ 2) := by
  unfold apart
  congr 1
  have h : ∀ i j, ((offR n e).get i j - (demoR n).get i j) ^ 2 = if i + j = 1 then e ^ 2 else 0 := by
    intro i j; simp only [offR]; split_ifs <;> ring
  simp only [h]
  rw [← Finset.sum_subset (Finset.range_subset_range.mpr hn) fun i _ hi => by
    rw [mem_range] at hi
    exact Finset.sum_eq_zero fun j _ => if_neg (by omega)]
  rw [Finset.sum_range_succ, Finset.sum_range_succ, Finset.sum_range_zero]
  have s : ∀ k < 2, ∑ j ∈ range n, (if k + j = 1 then e ^ 2 else 0) = e ^ 2 := by
    intro k hk
    have : ∀ j, (if k + j = 1 then e ^ 2 else 0) = if 1 - k = j then e ^ 2 else 0 := fun j => by
      by_cases h : k + j = 1
      · rw [if_pos h, if_pos (by omega)]
      · rw [if_neg h, if_neg (by omega)]
    simp only [this]
    rw [Finset.sum_ite_eq, if_pos (mem_range.mpr (by omega))]
  rw [s 0 (by omega), s 1 (by omega)]
  ring

theorem demoR_stiff (n : ℕ) : Stiff 1 (demoR n).get n := by
  intro w
  have e : ∑ i ∈ range n, ∑ j ∈ range n, w i * (demoR n).get i j * w j
      = ∑ i ∈ range n, w i ^ 2 + (∑ i ∈ range n, w i) * (∑ j ∈ range n, w j) := by
    rw [sum_mul_sum, ← sum_add_distrib]
    refine sum_congr rfl fun i hi => ?_
    have : ∀ j ∈ range n, w i * (demoR n).get i j * w j
        = (if i = j then w i * w j else 0) + w i * w j := by
      intro j _
      simp only [demoR]
      split_ifs <;> ring
    rw [sum_congr rfl this, sum_add_distrib, sum_ite_eq]
    simp [hi, sq]
  rw [e, one_mul]
  linarith [mul_self_nonneg (∑ i ∈ range n, w i)]

/-- With two coupled entries off by `1/100`, the answer to an input with fixed spheres and dumbbells is off by less
than two percent. -/
example : ∃ out out', solveForm .ufteu false 2 2 (demoR 34) demoInp = some out ∧
    solveForm .ufteu false 2 2 (offR 34 (1 / 100)) demoInp = some out' ∧
    size 34 (fun i => motion 2 2 out' i - motion 2 2 out i) ≤ 2 / 100 * size 34 (motion 2 2 out') := by
  have ha : apart 34 (offR 34 (1 / 100)).get (demoR 34).get ≤ 2 / 100 := by
    rw [offR_apart (by norm_num)]
    exact Real.sqrt_le_iff.mpr ⟨by norm_num, by norm_num⟩
  obtain ⟨out, h⟩ := demo_ufteu
  obtain ⟨out', h'⟩ := C78_solved (form := .ufteu) (Ns := 2) (Nd := 2) (R := demoR 34) (R' := offR 34 (1 / 100))
    ⟨by decide, by decide⟩ demoInp_sized demoInp_complete rfl rfl (offR_symm _ _) (demoR_stiff _)
    (lt_of_le_of_lt ha (by norm_num))
  refine ⟨out, out', h, h', ?_⟩
  have := C78_bound one_pos (form := .ufteu) (Ns := 2) (Nd := 2) ⟨by decide, by decide⟩ demoInp_sized rfl rfl
    (demoR_symm _) (offR_symm _ _) (demoR_stiff _) h h'
  rw [div_one] at this
  exact this.trans (mul_le_mul_of_nonneg_right ha (Real.sqrt_nonneg _))

end SD
