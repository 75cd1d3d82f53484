import Verif.Lemmas.NearbyLip
import Verif.Props.SolveStable
import Verif.Lemmas.MovedStage

/-!
# The answers of the solver are locally Lipschitz functions of the resistance matrix
-/

set_option autoImplicit false

namespace SD.Lip

open Spec Filter Topology Finset

variable {α : Type} [PseudoMetricSpace α] {t0 : α}

theorem apart_le {n : ℕ} {A B : ℕ → ℕ → ℝ} {e : ℝ} (he : 0 ≤ e) (h : ∀ i < n, ∀ j < n, |A i j - B i j| ≤ e) :
    apart n A B ≤ n * e := by
  unfold apart
  rw [show (n : ℝ) * e = Real.sqrt ((n * e) ^ 2) from (Real.sqrt_sq (by positivity)).symm]
  refine Real.sqrt_le_sqrt ?_
  calc ∑ i ∈ range n, ∑ j ∈ range n, (A i j - B i j) ^ 2
      ≤ ∑ i ∈ range n, ∑ j ∈ range n, e ^ 2 := Finset.sum_le_sum fun i hi => Finset.sum_le_sum fun j hj =>
        sq_le_sq' (abs_le.mp (h i (mem_range.mp hi) j (mem_range.mp hj))).1
          (abs_le.mp (h i (mem_range.mp hi) j (mem_range.mp hj))).2
    _ = (n * e) ^ 2 := by simp; ring

theorem abs_le_size {n : ℕ} (v : ℕ → ℝ) {i : ℕ} (hi : i < n) : |v i| ≤ size n v := by
  unfold size
  rw [← Real.sqrt_sq_eq_abs]
  exact Real.sqrt_le_sqrt (Perturb.sq_le_total v hi)

theorem stiff_near {A B : ℕ → ℕ → ℝ} {n : ℕ} {c d : ℝ} (h : Stiff c B n) (hd : apart n A B ≤ d) : Stiff (c - d) A n := by
  intro w
  have h1 := h w
  have h2 := Perturb.form_le (fun i j => A i j - B i j) n w w
  rw [Real.mul_self_sqrt (Finset.sum_nonneg fun i _ => sq_nonneg _)] at h2
  have h3 : ∑ i ∈ range n, ∑ j ∈ range n, w i * A i j * w j = ∑ i ∈ range n, ∑ j ∈ range n, w i * B i j * w j
      + ∑ i ∈ range n, ∑ j ∈ range n, w i * (A i j - B i j) * w j := by
    rw [← Finset.sum_add_distrib]
    refine Finset.sum_congr rfl fun i _ => ?_
    rw [← Finset.sum_add_distrib]
    exact Finset.sum_congr rfl fun j _ => by ring
  rw [h3]
  have s0 : 0 ≤ ∑ i ∈ range n, w i ^ 2 := Finset.sum_nonneg fun i _ => sq_nonneg _
  have h4 : apart n A B * ∑ i ∈ range n, w i ^ 2 ≤ d * ∑ i ∈ range n, w i ^ 2 := mul_le_mul_of_nonneg_right hd s0
  have h5 := (abs_le.mp h2).1
  unfold apart at h4
  rw [sub_mul]
  linarith

/-- If the entries of symmetric positive definite resistance matrices are locally Lipschitz, so are the motions. -/
theorem answer_ll {form : InputForm} {Ns Nd : ℕ} {inp : Inputs} {R : α → NDMat} {out : α → Outputs}
    (hf : formAllowed form Ns) (hsz : Sized Ns Nd inp)
    (hr : ∀ᶠ t in 𝓝 t0, (R t).rows = 11 * Ns + 6 * Nd ∧ Symm (R t).get (11 * Ns + 6 * Nd))
    (hP : PosDef (R t0).get (11 * Ns + 6 * Nd))
    (hl : ∀ i < 11 * Ns + 6 * Nd, ∀ j < 11 * Ns + 6 * Nd, LL (fun t => (R t).get i j) t0)
    (ho : ∀ᶠ t in 𝓝 t0, solveForm form false Ns Nd (R t) inp = some (out t)) {i : ℕ} (hi : i < 11 * Ns + 6 * Nd) :
    LL (fun t => motion Ns Nd (out t) i) t0 := by
  obtain ⟨c, hc, hst⟩ := C78_stiff hP
  set n := 11 * Ns + 6 * Nd with hn
  obtain ⟨K, s, hs, hK⟩ : LL (fun t (a : Fin n) (b : Fin n) => (R t).get a b) t0 :=
    LL.pi fun a => LL.pi fun b => hl a a.2 b b.2
  have ent : ∀ p ∈ s, ∀ q ∈ s, ∀ a < n, ∀ b < n, |(R p).get a b - (R q).get a b| ≤ K * dist p q := by
    intro p hp q hq a ha b hb
    have h1 := hK.dist_le_mul p hp q hq
    have h2 := (dist_le_pi_dist _ _ (⟨a, ha⟩ : Fin n)).trans h1
    exact (dist_le_pi_dist _ _ (⟨b, hb⟩ : Fin n)).trans h2
  have ap : ∀ p ∈ s, ∀ q ∈ s, apart n (R p).get (R q).get ≤ n * (K * dist p q) := fun p hp q hq =>
    apart_le (by positivity) (ent p hp q hq)
  have near : ∀ᶠ t in 𝓝 t0, (n : ℝ) * (K * dist t t0) ≤ c / 2 := by
    have : Tendsto (fun t => (n : ℝ) * (K * dist t t0)) (𝓝 t0) (𝓝 ((n : ℝ) * (K * dist t0 t0))) :=
      ((tendsto_id.dist tendsto_const_nhds).const_mul _).const_mul _
    rw [dist_self, mul_zero, mul_zero] at this
    exact (this.eventually (gt_mem_nhds (half_pos hc))).mono fun t ht => ht.le
  obtain ⟨r0, o0⟩ := (hr.and ho).self_of_nhds
  set m0 := size n (motion Ns Nd (out t0)) with hm0
  have m0n : 0 ≤ m0 := Real.sqrt_nonneg _
  have t0s : t0 ∈ s := mem_of_mem_nhds hs
  refine ⟨⟨n * K / (c / 2) * (2 * m0), by positivity⟩, _, inter_mem hs (inter_mem hr (inter_mem ho near)), ?_⟩
  refine LipschitzOnWith.of_dist_le_mul fun p hp q hq => ?_
  obtain ⟨p1, p2, p3, p4⟩ := hp
  obtain ⟨q1, q2, q3, q4⟩ := hq
  have stp : Stiff (c / 2) (R p).get n := by
    have := stiff_near hst ((ap p p1 t0 t0s).trans p4)
    rwa [show c - c / 2 = c / 2 by ring] at this
  have stq : Stiff (c / 2) (R q).get n := by
    have := stiff_near hst ((ap q q1 t0 t0s).trans q4)
    rwa [show c - c / 2 = c / 2 by ring] at this
  have b1 := C78_bound (half_pos hc) hf hsz q2.1 p2.1 q2.2 p2.2 stq q3 p3
  -- the motion at `p` is bounded
  have b2 : size n (motion Ns Nd (out p)) ≤ 2 * m0 := by
    have h := C78_bound (half_pos hc) hf hsz p2.1 r0.1 p2.2 r0.2 stp p3 o0
    have h1 : apart n (R t0).get (R p).get ≤ c / 2 := (ap t0 t0s p p1).trans (by rw [dist_comm]; exact p4)
    have h2 : size n (fun i => motion Ns Nd (out t0) i - motion Ns Nd (out p) i) ≤ m0 := by
      refine h.trans ?_
      calc _ ≤ 1 * m0 := mul_le_mul_of_nonneg_right (by rw [div_le_one (half_pos hc)]; exact h1) m0n
        _ = m0 := one_mul _
    have tri : size n (motion Ns Nd (out p)) ≤ m0 + size n (fun i => motion Ns Nd (out t0) i - motion Ns Nd (out p) i) := by
      set x := motion Ns Nd (out p)
      set y := motion Ns Nd (out t0)
      have hx : ∀ v : ℕ → ℝ, size n v = ‖(WithLp.toLp 2 fun a : Fin n => v a : EuclideanSpace ℝ (Fin n))‖ := by
        intro v
        rw [EuclideanSpace.norm_eq]
        unfold size
        rw [Finset.sum_range]
        simp
      rw [hm0, hx x, hx y, hx]
      have e : (WithLp.toLp 2 fun a : Fin n => x a : EuclideanSpace ℝ (Fin n))
          = (WithLp.toLp 2 fun a : Fin n => y a) - WithLp.toLp 2 fun a : Fin n => y a - x a := by
        ext a; simp
      rw [e]
      exact norm_sub_le _ _
    linarith
  rw [Real.dist_eq]
  refine (abs_le_size (n := n) (fun i => motion Ns Nd (out p) i - motion Ns Nd (out q) i) hi).trans (b1.trans ?_)
  have b3 : apart n (R p).get (R q).get / (c / 2) ≤ n * K / (c / 2) * dist p q := by
    rw [div_mul_eq_mul_div, div_le_div_iff_of_pos_right (half_pos hc), mul_assoc]
    exact ap p p1 q q1
  calc _ ≤ n * K / (c / 2) * dist p q * (2 * m0) :=
        mul_le_mul b3 b2 (Real.sqrt_nonneg _) (by positivity)
    _ = n * K / (c / 2) * (2 * m0) * dist p q := by ring

theorem uncondense_ll {f : α → Vec5} (h : ∀ r, LL (fun t => f t r) t0) (i j : Fin 3) :
    LL (fun t => uncondenseOne (f t) i j) t0 := by
  have : LL (fun g : Vec5 => uncondenseOne g i j) (f t0) := by
    refine LL.of_contDiff ?_
    unfold uncondenseOne
    fin_cases i <;> fin_cases j <;> simp <;> fun_prop
  exact this.comp (LL.pi h)

/-- The strains of the solution: those read off the motion, or those prescribed. -/
theorem strain_cases {form : InputForm} {Ns Nd : ℕ} {inp : Inputs} (hN : 0 < Ns) : ∃ E : List Mat3,
    ∀ {R : NDMat} {out : Outputs}, solveForm form false Ns Nd R inp = some out →
      (form = .fts ∧ ∀ i < Ns, out.Ea.getD i 0 = uncondenseOne fun r => motion Ns Nd out (6 * Ns + (5 * i + r))) ∨
      (form ≠ .fts ∧ out.Ea = E) := by
  refine ⟨(inp.Ea.mapM floats33).getD [], fun {R out} h => ?_⟩
  have h2 := Move.solve_strains h
  by_cases hf : form = .fts
  · refine .inl ⟨hf, fun i hi => ?_⟩
    subst hf
    have e : (fun r : Fin 5 => motion Ns Nd out (6 * Ns + (5 * i + r))) = five (out.Ea.getD i 0) := by
      funext r
      unfold motion
      rw [pack_e _ _ _ _ _ hi]
    rw [e, uncondense_five]
    simp only [solveForm, solveFTS] at h
    obtain ⟨_, -, h⟩ := Option.bind_eq_some_iff.mp h
    obtain ⟨vv, -, h⟩ := Option.bind_eq_some_iff.mp h
    obtain ⟨_, -, h⟩ := Option.bind_eq_some_iff.mp h
    obtain ⟨_, -, h⟩ := Option.bind_eq_some_iff.mp h
    obtain ⟨_, -, h⟩ := Option.bind_eq_some_iff.mp h
    obtain ⟨_, -, h⟩ := Option.bind_eq_some_iff.mp h
    obtain ⟨_, -, h⟩ := Option.bind_eq_some_iff.mp h
    obtain ⟨Ea, h6, h⟩ := Option.bind_eq_some_iff.mp h
    obtain rfl := Option.some.inj h
    rw [if_neg (by omega)] at h6
    obtain rfl := Option.some.inj h6
    refine dec_e_sym Ns Nd vv _ ?_
    have hl : i < (deconstruct_velocity_vector_for_fts Ns Nd vv).e.length := by rw [dec_e_len]; exact hi
    show (deconstruct_velocity_vector_for_fts Ns Nd vv).e.getD i 0 ∈ _
    rw [List.getD_eq_getElem _ _ hl]; exact List.getElem_mem hl
  · rw [if_neg (fun h => hf h.1)] at h2
    exact .inr ⟨hf, by rw [h2]; rfl⟩

end SD.Lip
