import Verif.Lemmas.SolveEcho

/-!
# C05-C10: the mobility solve

`Solves`: the outputs obey the grand resistance relation `R (U,O,E,Ub,HalfDUb) = (F,T,S,Fb,DFb)` and
have one row per particle. `Echo`: prescribed values are returned unchanged. The symmetry of the
resistance matrix is a theorem about the assembled matrix (C12, C20, C25).
-/

set_option autoImplicit false

namespace SD

open Finset Spec

/-! ## A fully coupled positive definite matrix for the non-vacuity examples -/

/-- Two on the diagonal, one elsewhere. -/
def demoR (n : ℕ) : NDMat := ⟨n, n, fun i j => if i = j then 2 else 1⟩

theorem demoR_symm (n : ℕ) : Symm (demoR n).get n := by
  intro i _ j _; simp only [demoR]; simp only [eq_comm]

theorem demoR_posDef (n : ℕ) : PosDef (demoR n).get n := by
  intro w ⟨i, hi, hne⟩
  have e : ∑ i ∈ range n, ∑ j ∈ range n, w i * (demoR n).get i j * w j
      = ∑ i ∈ range n, w i * w i + (∑ i ∈ range n, w i) * (∑ j ∈ range n, w j) := by
    rw [sum_mul_sum, ← sum_add_distrib]
    refine sum_congr rfl fun i hi => ?_
    have : ∀ j ∈ range n, w i * (demoR n).get i j * w j
        = (if i = j then w i * w j else 0) + w i * w j := by
      intro j _
      simp only [demoR]
      split_ifs <;> ring
    rw [sum_congr rfl this, sum_add_distrib, sum_ite_eq]
    simp [hi]
  rw [e]
  have h1 : 0 < ∑ i ∈ range n, w i * w i := by
    apply sum_pos' (fun i _ => mul_self_nonneg _)
    exact ⟨i, mem_range.mpr hi, mul_self_pos.mpr hne⟩
  have h2 := mul_self_nonneg (∑ i ∈ range n, w i)
  linarith

/-- Two spheres and two dumbbells; sphere 0 and dumbbell 0 have prescribed velocities in the mixed
forms, and every list contains non-zero data. -/
noncomputable def demoInp : Inputs where
  Fa := [blank, num3 ![1, 2, 3]]
  Ta := [num3 ![1, 0, 0], num3 ![0, 4, 0]]
  Sa := [fun _ _ => none, fun _ _ => none]
  Fb := [blank, num3 ![1, 1, 0]]
  DFb := [blank, num3 ![0, 1, 7]]
  Ua := [num3 ![5, 0, 0], blank]
  Ea := [num33 ![![0, 0, 1], ![0, 0, 0], ![1, 0, 0]], num33 ![![0, 0, 1], ![0, 0, 0], ![1, 0, 0]]]
  Ub := [num3 ![0, 2, 0], blank]
  HalfDUb := [num3 ![0, 0, 1], blank]

theorem demoInp_sized : Sized 2 2 demoInp := ⟨rfl, rfl, rfl, rfl, rfl, rfl, rfl, rfl⟩

theorem demoInp_complete : Complete .ufteu 2 2 demoInp := by
  refine ⟨1, by omega, 1, by omega, ?_⟩
  simp only [demoInp, List.take_succ_cons, List.take_zero, List.drop_succ_cons, List.drop_zero,
    List.mem_cons, List.not_mem_nil, or_false, forall_eq_or_imp, forall_eq, List.length_cons,
    List.length_nil]
  refine ⟨given_num3 _, trivial, given_num3 _, ⟨given_num3 _, given_num3 _⟩,
    ⟨by omega, given_num33 _, given_num33 _⟩, given_num3 _, trivial, given_num3 _, given_num3 _,
    given_num3 _⟩

/-- Forces, torques and strain given for two spheres and one dumbbell. -/
noncomputable def demoFTE : Inputs where
  Fa := [num3 ![0, 0, -1], num3 ![1, 2, 3]]
  Ta := [num3 ![1, 0, 0], num3 ![0, 4, 0]]
  Sa := [num33 ![![0, 1, 0], ![1, 0, 0], ![0, 0, 0]], num33 0]
  Fb := [num3 ![1, 1, 0]]
  DFb := [num3 ![0, 1, 7]]
  Ua := [blank, blank]
  Ea := [num33 ![![0, 0, 1], ![0, 0, 0], ![1, 0, 0]], num33 ![![0, 0, 1], ![0, 0, 0], ![1, 0, 0]]]
  Ub := [blank]
  HalfDUb := [blank]

theorem demoFTE_sized : Sized 2 1 demoFTE := ⟨rfl, rfl, rfl, rfl, rfl, rfl, rfl, rfl⟩

theorem demoFTE_complete : Complete .fte 2 1 demoFTE ∧ Complete .fts 2 1 demoFTE ∧
    Complete .ufte 2 1 demoFTE := by
  refine ⟨?_, ?_, 0, by omega, ?_⟩
  all_goals
    simp only [Complete, demoFTE, List.take_zero, List.drop_zero,
      List.mem_cons, List.not_mem_nil, or_false, forall_eq_or_imp, forall_eq, List.length_cons,
      List.length_nil]
  · exact ⟨⟨given_num3 _, given_num3 _⟩, ⟨given_num3 _, given_num3 _⟩,
      ⟨by omega, given_num33 _, given_num33 _⟩, given_num3 _, given_num3 _⟩
  · exact ⟨⟨given_num3 _, given_num3 _⟩, ⟨given_num3 _, given_num3 _⟩,
      ⟨given_num33 _, given_num33 _⟩, given_num3 _, given_num3 _, by omega⟩
  · exact ⟨by simp, ⟨trivial, trivial⟩, ⟨given_num3 _, given_num3 _⟩,
      ⟨given_num3 _, given_num3 _⟩,
      ⟨by omega, given_num33 _, given_num33 _⟩, given_num3 _, given_num3 _⟩

/-- A dumbbell-only input: dumbbell 0 at a prescribed velocity, dumbbell 1 force-driven. -/
noncomputable def demoDUF : Inputs where
  Fa := []
  Ta := []
  Sa := []
  Fb := [blank, num3 ![1, 1, 0]]
  DFb := [blank, num3 ![0, 1, 7]]
  Ua := []
  Ea := [num33 ![![0, 0, 1], ![0, 0, 0], ![1, 0, 0]]]
  Ub := [num3 ![0, 2, 0], blank]
  HalfDUb := [num3 ![0, 0, 1], blank]

theorem demoDUF_sized : Sized 0 2 demoDUF := ⟨rfl, rfl, rfl, rfl, rfl, rfl, rfl, rfl⟩

theorem demoDUF_complete : Complete .duf 0 2 demoDUF := by
  refine ⟨1, by omega, ?_⟩
  simp only [demoDUF, List.take_succ_cons, List.take_zero, List.drop_succ_cons, List.drop_zero,
    List.mem_cons, List.not_mem_nil, or_false, forall_eq]
  exact ⟨given_num3 _, trivial, given_num3 _, given_num3 _, given_num3 _, given_num33 _⟩

/-! ## C09, existence -/

/-- **C09** (no singular matrix). With a symmetric positive definite resistance matrix, every input
form allowed by the start-up check, every number of fixed particles and every complete input, all
intermediate inverses and the final solve exist. -/
theorem C09_spd_succeeds {form : InputForm} {Ns Nd : ℕ} {R : NDMat} {inp : Inputs}
    (hf : formAllowed form Ns) (hsz : Sized Ns Nd inp)
    (hr : R.rows = 11 * Ns + 6 * Nd) (hc : R.cols = 11 * Ns + 6 * Nd)
    (hS : Symm R.get (11 * Ns + 6 * Nd)) (hP : PosDef R.get (11 * Ns + 6 * Nd))
    (hC : Complete form Ns Nd inp) : ∃ out, solveForm form false Ns Nd R inp = some out := by
  have pos : form ≠ .fts → form ≠ .duf → 0 < Ns := by
    intro h1 h2
    by_contra h0
    rcases hf.1 (by omega) with h | h
    · exact h1 h
    · exact h2 h
  cases form with
  | fts => exact fts_exists hsz hr hc hP hC
  | fte => exact fte_solve_exists hsz (pos (by decide) (by decide)) hr hc hS hP hC
  | ufte => exact ufte_solve_exists hsz (pos (by decide) (by decide)) hr hc hS hP hC
  | ufteu => exact ufteu_solve_exists hsz (pos (by decide) (by decide)) hr hc hS hP hC
  | duf =>
    obtain rfl : Ns = 0 := by
      by_contra h0; exact hf.2 (Nat.pos_of_ne_zero h0) rfl
    exact duf_solve_exists hsz hr hc hS hP hC

theorem demo_ufteu : ∃ out, solveForm .ufteu false 2 2 (demoR 34) demoInp = some out :=
  C09_spd_succeeds ⟨by decide, by decide⟩ demoInp_sized rfl rfl (demoR_symm _) (demoR_posDef _)
    demoInp_complete

theorem demo_fte : ∃ out, solveForm .fte false 2 1 (demoR 28) demoFTE = some out :=
  C09_spd_succeeds ⟨by decide, by decide⟩ demoFTE_sized rfl rfl (demoR_symm _) (demoR_posDef _)
    demoFTE_complete.1

theorem demo_ufte : ∃ out, solveForm .ufte false 2 1 (demoR 28) demoFTE = some out :=
  C09_spd_succeeds ⟨by decide, by decide⟩ demoFTE_sized rfl rfl (demoR_symm _) (demoR_posDef _)
    demoFTE_complete.2.2

theorem demo_duf : ∃ out, solveForm .duf false 0 2 (demoR 12) demoDUF = some out :=
  C09_spd_succeeds ⟨by decide, by decide⟩ demoDUF_sized rfl rfl (demoR_symm _) (demoR_posDef _)
    demoDUF_complete

/-! ## C05-C08 -/

/-- **C05.** Force/torque/strain input. -/
theorem C05_fte_correct {Ns Nd : ℕ} {R : NDMat} {inp : Inputs} {out : Outputs}
    (hsz : Sized Ns Nd inp) (hR : R.rows = 11 * Ns + 6 * Nd)
    (hS : Symm R.get (11 * Ns + 6 * Nd)) (h : solveFTE Ns Nd R inp = some out) :
    Solves Ns Nd R out ∧ Echo .fte Ns Nd inp out ∧ (∀ m ∈ out.Sa, SymTraceless m) := by
  obtain ⟨a, ⟨b1, b2, b3, b4, b5⟩, c⟩ := fte_solves hsz hR hS h
  exact ⟨a, ⟨floatsL_num b1, floatsL_num b2, floats33L_num b3, floatsL_num b4, floatsL_num b5⟩, c⟩

example : ∃ out, Solves 2 1 (demoR 28) out ∧ Echo .fte 2 1 demoFTE out := by
  obtain ⟨out, h⟩ := demo_fte
  have := C05_fte_correct demoFTE_sized rfl (demoR_symm _) h
  exact ⟨out, this.1, this.2.1⟩

/-- **C05**, the `fts` form: force/torque/stresslet input; no symmetry is needed. -/
theorem C05_fts_correct {Ns Nd : ℕ} {R : NDMat} {inp : Inputs} {out : Outputs}
    (hsz : Sized Ns Nd inp) (hR : R.rows = 11 * Ns + 6 * Nd)
    (h : solveFTS Ns Nd R inp = some out) :
    Solves Ns Nd R out ∧ Echo .fts Ns Nd inp out ∧ (0 < Ns → ∀ m ∈ out.Ea, SymTraceless m) := by
  obtain ⟨a, ⟨b1, b2, b3, b4, b5⟩, c⟩ := fts_solves hsz hR h
  exact ⟨a, ⟨floatsL_num b1, floatsL_num b2, floats33L_num b3, floatsL_num b4, floatsL_num b5⟩, c⟩

example : ∃ out, Solves 2 1 (demoR 28) out ∧ Echo .fts 2 1 demoFTE out := by
  obtain ⟨out, h⟩ := fts_exists (R := demoR 28) demoFTE_sized rfl rfl (demoR_posDef _)
    demoFTE_complete.2.1
  have := C05_fts_correct demoFTE_sized rfl h
  exact ⟨out, this.1, this.2.1⟩

/-- **C06.** Some first-numbered spheres at prescribed velocities. -/
theorem C06_ufte_correct {Ns Nd : ℕ} {R : NDMat} {inp : Inputs} {out : Outputs}
    (hsz : Sized Ns Nd inp) (hR : R.rows = 11 * Ns + 6 * Nd)
    (hS : Symm R.get (11 * Ns + 6 * Nd)) (h : solveUFTE false Ns Nd R inp = some out) :
    Solves Ns Nd R out ∧ Echo .ufte Ns Nd inp out ∧ (∀ m ∈ out.Sa, SymTraceless m) := by
  obtain ⟨a, ⟨b1, b2, b3, b4, b5, b6⟩, c⟩ := ufte_solves hsz hR hS h
  exact ⟨a, ⟨Ns - countPippa inp.Ua, by omega, split_blank hsz.Ua b1, floatsL_num b2,
        floatsL_num b3, floats33L_num b4, floatsL_num b5, floatsL_num b6⟩, c⟩

example : ∃ out, Solves 2 1 (demoR 28) out ∧ Echo .ufte 2 1 demoFTE out := by
  obtain ⟨out, h⟩ := demo_ufte
  have := C06_ufte_correct demoFTE_sized rfl (demoR_symm _) h
  exact ⟨out, this.1, this.2.1⟩

/-- One sphere held at a velocity, one driven by a force. -/
example : ∃ out, Solves 2 1 (demoR 28) out ∧
    Echo .ufte 2 1 { demoFTE with Ua := [num3 ![5, 0, 0], blank], Fa := [blank, num3 1] } out := by
  have hC : Complete .ufte 2 1
      { demoFTE with Ua := [num3 ![5, 0, 0], blank], Fa := [blank, num3 1] } := by
    refine ⟨1, by omega, ?_⟩
    simp only [demoFTE, List.take_succ_cons, List.take_zero, List.drop_succ_cons, List.drop_zero,
      List.mem_cons, List.not_mem_nil, or_false, forall_eq_or_imp, forall_eq, List.length_cons,
      List.length_nil]
    exact ⟨given_num3 _, trivial, given_num3 _,
      ⟨given_num3 _, given_num3 _⟩,
      ⟨by omega, given_num33 _, given_num33 _⟩, given_num3 _, given_num3 _⟩
  have hs : Sized 2 1 { demoFTE with Ua := [num3 ![5, 0, 0], blank], Fa := [blank, num3 1] } :=
    ⟨rfl, rfl, rfl, rfl, rfl, rfl, rfl, rfl⟩
  obtain ⟨out, h⟩ := C09_spd_succeeds (R := demoR 28) ⟨by decide, by decide⟩ hs rfl rfl
    (demoR_symm _) (demoR_posDef _) hC
  have := C06_ufte_correct hs rfl (demoR_symm _) h
  exact ⟨out, this.1, this.2.1⟩

/-- **C07.** Some first-numbered spheres and dumbbells at prescribed velocities. -/
theorem C07_ufteu_correct {Ns Nd : ℕ} {R : NDMat} {inp : Inputs} {out : Outputs}
    (hsz : Sized Ns Nd inp) (hR : R.rows = 11 * Ns + 6 * Nd)
    (hS : Symm R.get (11 * Ns + 6 * Nd)) (h : solveUFTEU Ns Nd R inp = some out) :
    Solves Ns Nd R out ∧ Echo .ufteu Ns Nd inp out ∧ (∀ m ∈ out.Sa, SymTraceless m) := by
  obtain ⟨a, ⟨b1, b2, b3, b4, b5, b6, b7, b8⟩, c⟩ := ufteu_solves hsz hR hS h
  exact ⟨a, ⟨Ns - countPippa inp.Ua, by omega, Nd - countPippa inp.Ub, by omega,
      split_blank hsz.Ua b1, floatsL_num b2,
      floatsL_num b3, floats33L_num b4, split_blank hsz.Ub b5, floatsL_num b7, floatsL_num b6,
      floatsL_num b8⟩, c⟩

example : ∃ out, Solves 2 2 (demoR 34) out ∧ Echo .ufteu 2 2 demoInp out := by
  obtain ⟨out, h⟩ := demo_ufteu
  have := C07_ufteu_correct demoInp_sized rfl (demoR_symm _) h
  exact ⟨out, this.1, this.2.1⟩

/-- **C08.** Dumbbells only, some first-numbered ones at prescribed velocities. -/
theorem C08_duf_correct {Nd : ℕ} {R : NDMat} {inp : Inputs} {out : Outputs}
    (hsz : Sized 0 Nd inp) (hR : R.rows = 6 * Nd)
    (hS : Symm R.get (6 * Nd)) (h : solveDUF 0 Nd R inp = some out) :
    Solves 0 Nd R out ∧ Echo .duf 0 Nd inp out := by
  have e : 6 * Nd = 11 * 0 + 6 * Nd := by omega
  obtain ⟨a, b5, b6, b7, b8⟩ := duf_solves hsz (e ▸ hR) (e ▸ hS) h
  exact ⟨a, Nd - countPippa inp.Ub, by omega,
      split_blank hsz.Ub b5, floatsL_num b7, floatsL_num b6, floatsL_num b8⟩

example : ∃ out, Solves 0 2 (demoR 12) out ∧ Echo .duf 0 2 demoDUF out := by
  obtain ⟨out, h⟩ := demo_duf
  have := C08_duf_correct demoDUF_sized rfl (demoR_symm _) h
  exact ⟨out, this.1, this.2⟩

/-! ## C09, uniqueness and agreement of forms -/

/-- **C09** (exactly one solution). For any index set of prescribed velocities (the complement having
prescribed forces) a positive definite relation has at most one solution. -/
theorem C09_unique {M : ℕ → ℕ → ℝ} {n : ℕ} (h : PosDef M n) {v v' f f' : ℕ → ℝ}
    (h1 : LinRel M n v f) (h2 : LinRel M n v' f') (hag : ∀ i < n, v i = v' i ∨ f i = f' i) :
    ∀ i < n, v i = v' i ∧ f i = f' i := mixed_unique h h1 h2 hag

example : LinRel (demoR 3).get 3 (fun _ => 1) (fun _ => 4) ∧
    ¬ (∀ i < 3, (fun _ : ℕ => (1 : ℝ)) i = (fun _ => 0) i) := by
  refine ⟨?_, fun h => by have := h 0 (by omega); norm_num at this⟩
  intro i hi
  interval_cases i <;> simp [demoR, sum_range_succ] <;> norm_num

/-- **C09** (forms agree). Take any solution `a` of the resistance relation, for instance the output
of one input form. If the inputs of another form prescribe values of that solution, the solve with
the second form returns the same forces and motion. -/
theorem C09_forms_agree {form : InputForm} {Ns Nd : ℕ} {R : NDMat} {inp : Inputs} {a : Outputs}
    (hf : formAllowed form Ns) (hsz : Sized Ns Nd inp)
    (hr : R.rows = 11 * Ns + 6 * Nd) (hc : R.cols = 11 * Ns + 6 * Nd)
    (hS : Symm R.get (11 * Ns + 6 * Nd)) (hP : PosDef R.get (11 * Ns + 6 * Nd))
    (ha : Solves Ns Nd R a) (hsS : ∀ m ∈ a.Sa, SymTraceless m)
    (hsE : ∀ m ∈ a.Ea.take Ns, SymTraceless m)
    (he : Echo form Ns Nd inp a)
    (hE0 : Ns = 0 → ∀ m ∈ inp.Ea, Given33 m) :
    ∃ b, solveForm form false Ns Nd R inp = some b ∧ SameMotion Ns a b := by
  have gt : ∀ (l : List Vec3) k, (l.map num3).take k = (l.take k).map num3 := by
    intro l k; rw [List.map_take]
  have blanks : ∀ {l : List OVec3} {r : List Vec3} {n k : ℕ}, r.length = n → k ≤ n →
      l = (r.take k).map num3 ++ List.replicate (n - k) blank →
      (∀ v ∈ l.take k, Given3 v) ∧ ∀ v ∈ l.drop k, v = blank := by
    intro l r n k hr hk h
    have hl : ((r.take k).map num3).length = k := by simp [hr, hk]
    rw [h, List.take_left' hl, List.drop_left' hl]
    exact ⟨given_map _, fun v hv => List.eq_of_mem_replicate hv⟩
  have hC : Complete form Ns Nd inp := by
    cases form with
    | fts =>
      obtain ⟨x1, x2, x3, x4, x5⟩ := he
      exact ⟨x1 ▸ given_map _, x2 ▸ given_map _, x3 ▸ given_map33 _, x4 ▸ given_map _,
        x5 ▸ given_map _, hE0⟩
    | fte =>
      obtain ⟨x1, x2, x3, x4, x5⟩ := he
      exact ⟨x1 ▸ given_map _, x2 ▸ given_map _,
        ⟨by rw [x3, List.length_map]; exact ha.Ea, x3 ▸ given_map33 _⟩, x4 ▸ given_map _,
        x5 ▸ given_map _⟩
    | ufte =>
      obtain ⟨k, hk, x0, x1, x2, x3, x4, x5⟩ := he
      obtain ⟨p, q⟩ := blanks ha.Ua hk x0
      exact ⟨k, hk, p, q, x1 ▸ given_map _, x2 ▸ given_map _,
        ⟨by rw [x3, List.length_map]; exact ha.Ea, x3 ▸ given_map33 _⟩, x4 ▸ given_map _,
        x5 ▸ given_map _⟩
    | ufteu =>
      obtain ⟨k, hk, kd, hkd, x0, x1, x2, x3, x4, x5, x6, x7⟩ := he
      obtain ⟨p, q⟩ := blanks ha.Ua hk x0
      obtain ⟨p', q'⟩ := blanks ha.Ub hkd x4
      exact ⟨k, hk, kd, hkd, p, q, x1 ▸ given_map _, x2 ▸ given_map _,
        ⟨by rw [x3, List.length_map]; exact ha.Ea, x3 ▸ given_map33 _⟩, p', q',
        x5 ▸ given_map _, x6 ▸ given_map _, x7 ▸ given_map _⟩
    | duf =>
      obtain ⟨kd, hkd, x4, x5, x6, x7⟩ := he
      obtain ⟨p', q'⟩ := blanks ha.Ub hkd x4
      have h0 : Ns = 0 := by
        by_contra h0; exact hf.2 (Nat.pos_of_ne_zero h0) rfl
      exact ⟨kd, hkd, p', q', x5 ▸ given_map _, x6 ▸ given_map _, x7 ▸ given_map _, hE0 h0⟩
  obtain ⟨b, hb⟩ := C09_spd_succeeds hf hsz hr hc hS hP hC
  refine ⟨b, hb, ?_⟩
  obtain ⟨sb, eb⟩ := solve_echo hf hsz hr hS hb
  have key := mixed_unique hP ha.rel sb.rel (echo_agree hf ha sb he eb)
  -- the output tensors are symmetric and traceless
  have hbS : ∀ m ∈ b.Sa, SymTraceless m := by
    cases form with
    | fts => rw [← map33_inj he.2.2.1 eb.2.2.1]; exact hsS
    | fte => exact (C05_fte_correct hsz hr hS hb).2.2
    | ufte => exact (C06_ufte_correct hsz hr hS hb).2.2
    | ufteu => exact (C07_ufteu_correct hsz hr hS hb).2.2
    | duf =>
      have h0 : Ns = 0 := by
        by_contra h0; exact hf.2 (Nat.pos_of_ne_zero h0) rfl
      have : b.Sa = [] := List.length_eq_zero_iff.mp (sb.Sa.trans h0)
      rw [this]; simp
  have hbE : ∀ m ∈ b.Ea.take Ns, SymTraceless m := by
    rcases Nat.eq_zero_or_pos Ns with h0 | h0
    · rw [h0]; simp
    · intro m hm
      have hm' := List.mem_of_mem_take hm
      cases form with
      | fts => exact (C05_fts_correct hsz hr hb).2.2 h0 m hm'
      | fte => rw [← map33_inj he.2.2.1 eb.2.2.1] at hm; exact hsE m hm
      | ufte =>
        obtain ⟨_, _, _, _, _, x3, _⟩ := he
        obtain ⟨_, _, _, _, _, y3, _⟩ := eb
        rw [← map33_inj x3 y3] at hm; exact hsE m hm
      | ufteu =>
        obtain ⟨_, _, _, _, _, _, _, x3, _⟩ := he
        obtain ⟨_, _, _, _, _, _, _, y3, _⟩ := eb
        rw [← map33_inj x3 y3] at hm; exact hsE m hm
      | duf => exact absurd rfl (hf.2 h0)
  obtain ⟨u1, u2, u3, u4, u5⟩ := pack_inj ha.Ua sb.Ua ha.Oa sb.Oa ha.Ea sb.Ea ha.Ub sb.Ub
    ha.HalfDUb sb.HalfDUb hsE hbE
    fun i hi => (key i hi).1
  obtain ⟨f1, f2, f3, f4, f5⟩ := pack_inj ha.Fa sb.Fa ha.Ta sb.Ta ha.Sa.ge sb.Sa.ge ha.Fb sb.Fb
    ha.DFb sb.DFb (fun m hm => hsS m (List.mem_of_mem_take hm))
    (fun m hm => hbS m (List.mem_of_mem_take hm)) fun i hi => (key i hi).2
  rw [List.take_of_length_le ha.Sa.le, List.take_of_length_le sb.Sa.le] at f3
  exact ⟨f1, f2, f3, f4, f5, u1, u2, u3, u4, u5⟩

/-- Non-vacuity: solve one sphere and one dumbbell in `fte` form, then feed the velocities back in
`ufteu` form with everything fixed; the same forces come out. -/
example : ∃ a b : Outputs, ∃ inp2 : Inputs,
    solveForm .fte false 2 1 (demoR 28) demoFTE = some a ∧
    inp2.Ua = a.Ua.map num3 ∧ inp2.Ub = a.Ub.map num3 ∧
    solveForm .ufteu false 2 1 (demoR 28) inp2 = some b ∧ SameMotion 2 a b := by
  obtain ⟨a, ha⟩ := demo_fte
  obtain ⟨s, e, hs⟩ := C05_fte_correct demoFTE_sized rfl (demoR_symm _) ha
  set inp2 : Inputs :=
    { Fa := [blank, blank]
      Ta := a.Ta.map num3
      Sa := [fun _ _ => none, fun _ _ => none]
      Fb := [blank]
      DFb := [blank]
      Ua := a.Ua.map num3
      Ea := a.Ea.map num33
      Ub := a.Ub.map num3
      HalfDUb := a.HalfDUb.map num3 }
  have hsz : Sized 2 1 inp2 := ⟨rfl, by simp [inp2, s.Ta], rfl, rfl, rfl, by simp [inp2, s.Ua],
    by simp [inp2, s.Ub], by simp [inp2, s.HalfDUb]⟩
  have he : Echo .ufteu 2 1 inp2 a := by
    refine ⟨2, le_rfl, 1, le_rfl, ?_, ?_, rfl, rfl, ?_, ?_, ?_, ?_⟩
    · simp [inp2, List.take_of_length_le s.Ua.le]
    · have : a.Fa.drop 2 = [] := List.drop_eq_nil_of_le s.Fa.le
      simp [inp2, this]
    · simp [inp2, List.take_of_length_le s.Ub.le]
    · simp [inp2, List.map_take]
    · have : a.Fb.drop 1 = [] := List.drop_eq_nil_of_le s.Fb.le
      simp only [inp2, this]; simp
    · have : a.DFb.drop 1 = [] := List.drop_eq_nil_of_le s.DFb.le
      simp only [inp2, this]; simp
  have hE : ∀ m ∈ a.Ea, SymTraceless m := by
    have h1 : demoFTE.Ea = a.Ea.map num33 := e.2.2.1
    intro m hm
    have : num33 m ∈ demoFTE.Ea := by rw [h1]; exact List.mem_map_of_mem hm
    simp only [demoFTE, List.mem_cons, List.not_mem_nil, or_false, or_self] at this
    rw [num33_inj this]
    refine ⟨?_, by simp⟩
    intro i j; fin_cases i <;> fin_cases j <;> rfl
  obtain ⟨b, hb, hm⟩ := C09_forms_agree ⟨by decide, by decide⟩ hsz rfl rfl (demoR_symm 28)
    (demoR_posDef 28) s hs (fun m hm => hE m (List.mem_of_mem_take hm)) he (by omega)
  exact ⟨a, b, inp2, ha, rfl, rfl, hb, hm⟩

/-! ## C10 -/

theorem construct?_given {Ns Nd : ℕ} {f t : List OVec3} {s : List OMat3} {fb dfb : List OVec3}
    {fv : List ℝ} (h : constructForceVector? Ns Nd f t s fb dfb = some fv) : Ns ≤ s.length := by
  unfold constructForceVector? at h
  by_contra h0
  rw [if_pos (by omega)] at h
  exact absurd h (by simp)

/-- **C10.** In every input form and for an arbitrary matrix, the solve produces numbers only if
every entry the form requires is a number and, in the mixed forms, the particles with prescribed
velocities are numbered first and all the others are placeholders. -/
theorem C10_placeholders {form : InputForm} {e : Bool} {Ns Nd : ℕ} {R : NDMat} {inp : Inputs}
    {out : Outputs} (hsz : Sized Ns Nd inp)
    (h : solveForm form e Ns Nd R inp = some out) : Complete form Ns Nd inp := by
  cases form with
  | fts =>
    simp only [solveForm, solveFTS] at h
    obtain ⟨_, -, h⟩ := Option.bind_eq_some_iff.mp h
    obtain ⟨_, -, h⟩ := Option.bind_eq_some_iff.mp h
    obtain ⟨_, h1, h⟩ := Option.bind_eq_some_iff.mp h
    obtain ⟨_, h2, h⟩ := Option.bind_eq_some_iff.mp h
    obtain ⟨_, h3, h⟩ := Option.bind_eq_some_iff.mp h
    obtain ⟨_, h4, h⟩ := Option.bind_eq_some_iff.mp h
    obtain ⟨_, h5, h⟩ := Option.bind_eq_some_iff.mp h
    obtain ⟨_, h6, h⟩ := Option.bind_eq_some_iff.mp h
    refine ⟨floatsL_given h1, floatsL_given h2, floats33L_given h3, floatsL_given h4,
      floatsL_given h5, ?_⟩
    intro h0
    rw [if_pos h0] at h6
    exact floats33L_given h6
  | fte =>
    simp only [solveForm, solveFTE] at h
    obtain ⟨_, -, h⟩ := Option.bind_eq_some_iff.mp h
    obtain ⟨_, h0, h⟩ := Option.bind_eq_some_iff.mp h
    obtain ⟨_, -, h⟩ := Option.bind_eq_some_iff.mp h
    obtain ⟨_, h1, h⟩ := Option.bind_eq_some_iff.mp h
    obtain ⟨_, h2, h⟩ := Option.bind_eq_some_iff.mp h
    obtain ⟨_, h3, h⟩ := Option.bind_eq_some_iff.mp h
    obtain ⟨_, h4, h⟩ := Option.bind_eq_some_iff.mp h
    obtain ⟨_, h5, h⟩ := Option.bind_eq_some_iff.mp h
    exact ⟨floatsL_given h1, floatsL_given h2, ⟨construct?_given h0, floats33L_given h3⟩,
      floatsL_given h4, floatsL_given h5⟩
  | ufte =>
    simp only [solveForm, solveUFTE] at h
    obtain ⟨_, h0, h⟩ := Option.bind_eq_some_iff.mp h
    obtain ⟨_, -, h⟩ := Option.bind_eq_some_iff.mp h
    obtain ⟨_, -, h⟩ := Option.bind_eq_some_iff.mp h
    cases e with
    | true => exact absurd h (by simp)
    | false =>
      rw [if_neg (by simp)] at h
      obtain ⟨_, -, h⟩ := Option.bind_eq_some_iff.mp h
      obtain ⟨_, h1, h⟩ := Option.bind_eq_some_iff.mp h
      obtain ⟨_, h2, h⟩ := Option.bind_eq_some_iff.mp h
      obtain ⟨_, h3, h⟩ := Option.bind_eq_some_iff.mp h
      obtain ⟨_, h4, h⟩ := Option.bind_eq_some_iff.mp h
      obtain ⟨_, h5, h⟩ := Option.bind_eq_some_iff.mp h
      obtain ⟨_, h6, h⟩ := Option.bind_eq_some_iff.mp h
      rw [List.take_of_length_le hsz.Fa.le] at h1
      exact ⟨Ns - countPippa inp.Ua, by omega, floatsL_given h2,
        rest_placeholder hsz.Ua (floatsL_given h2), floatsL_given h1, floatsL_given h3,
        ⟨construct?_given h0, floats33L_given h4⟩, floatsL_given h5, floatsL_given h6⟩
  | ufteu =>
    simp only [solveForm, solveUFTEU] at h
    obtain ⟨_, h0, h⟩ := Option.bind_eq_some_iff.mp h
    obtain ⟨_, -, h⟩ := Option.bind_eq_some_iff.mp h
    obtain ⟨_, -, h⟩ := Option.bind_eq_some_iff.mp h
    obtain ⟨_, -, h⟩ := Option.bind_eq_some_iff.mp h
    obtain ⟨_, -, h⟩ := Option.bind_eq_some_iff.mp h
    obtain ⟨_, h1, h⟩ := Option.bind_eq_some_iff.mp h
    obtain ⟨_, h2, h⟩ := Option.bind_eq_some_iff.mp h
    obtain ⟨_, h3, h⟩ := Option.bind_eq_some_iff.mp h
    obtain ⟨_, h4, h⟩ := Option.bind_eq_some_iff.mp h
    obtain ⟨_, h5, h⟩ := Option.bind_eq_some_iff.mp h
    obtain ⟨_, h6, h⟩ := Option.bind_eq_some_iff.mp h
    obtain ⟨_, h7, h⟩ := Option.bind_eq_some_iff.mp h
    obtain ⟨_, h8, h⟩ := Option.bind_eq_some_iff.mp h
    rw [List.take_of_length_le hsz.Fa.le] at h1
    rw [List.take_of_length_le hsz.Fb.le] at h5
    rw [List.take_of_length_le hsz.DFb.le] at h7
    exact ⟨Ns - countPippa inp.Ua, by omega, Nd - countPippa inp.Ub, by omega, floatsL_given h2,
      rest_placeholder hsz.Ua (floatsL_given h2), floatsL_given h1, floatsL_given h3,
      ⟨construct?_given h0, floats33L_given h4⟩, floatsL_given h6,
      rest_placeholder hsz.Ub (floatsL_given h6), floatsL_given h8, floatsL_given h5,
      floatsL_given h7⟩
  | duf =>
    simp only [solveForm, solveDUF] at h
    obtain ⟨_, h0, h⟩ := Option.bind_eq_some_iff.mp h
    obtain ⟨_, -, h⟩ := Option.bind_eq_some_iff.mp h
    obtain ⟨_, -, h⟩ := Option.bind_eq_some_iff.mp h
    obtain ⟨_, h5, h⟩ := Option.bind_eq_some_iff.mp h
    obtain ⟨_, h6, h⟩ := Option.bind_eq_some_iff.mp h
    obtain ⟨_, h7, h⟩ := Option.bind_eq_some_iff.mp h
    obtain ⟨_, h8, h⟩ := Option.bind_eq_some_iff.mp h
    obtain ⟨_, -, h⟩ := Option.bind_eq_some_iff.mp h
    obtain ⟨_, -, h⟩ := Option.bind_eq_some_iff.mp h
    obtain ⟨_, h9, h⟩ := Option.bind_eq_some_iff.mp h
    rw [List.take_of_length_le hsz.Fb.le] at h5
    rw [List.take_of_length_le hsz.DFb.le] at h7
    exact ⟨Nd - countPippa inp.Ub, by omega, floatsL_given h6,
      rest_placeholder hsz.Ub (floatsL_given h6), floatsL_given h8, floatsL_given h5,
      floatsL_given h7, floats33L_given h9⟩

/-- **C10**, as the user meets it: an incomplete or misnumbered input always stops the run. -/
theorem C10_incomplete_stops {form : InputForm} {e : Bool} {Ns Nd : ℕ} {R : NDMat} {inp : Inputs}
    (hsz : Sized Ns Nd inp) (h : ¬ Complete form Ns Nd inp) :
    solveForm form e Ns Nd R inp = none := by
  rcases hs : solveForm form e Ns Nd R inp with _ | out
  · rfl
  · exact absurd (C10_placeholders hsz hs) h

/-- The fixed sphere is numbered second: whatever the matrix, no numbers come out. -/
example (R : NDMat) : solveForm .ufte false 2 1 R
    { demoFTE with Ua := [blank, num3 ![5, 0, 0]], Fa := [num3 1, blank] } = none := by
  apply C10_incomplete_stops
  · exact ⟨rfl, rfl, rfl, rfl, rfl, rfl, rfl, rfl⟩
  · rintro ⟨k, hk, h1, h2, h3, -⟩
    interval_cases k
    · have := h2 (num3 ![5, 0, 0]) (by simp)
      exact given_not_blank (given_num3 _) this
    · exact given_not_blank (h1 blank (by simp)) rfl
    · exact given_not_blank (h1 blank (by simp)) rfl

/-- **C10** (wall-force extraction). With the extraction flag the `ufte` branch never produces
numbers (see DESIGN.md: it always raises). -/
theorem C10_extract_stops (Ns Nd : ℕ) (R : NDMat) (inp : Inputs) :
    solveForm .ufte true Ns Nd R inp = none := by
  rcases hs : solveForm .ufte true Ns Nd R inp with _ | out
  · rfl
  · exfalso
    simp only [solveForm, solveUFTE, if_true] at hs
    obtain ⟨_, -, h⟩ := Option.bind_eq_some_iff.mp hs
    obtain ⟨_, -, h⟩ := Option.bind_eq_some_iff.mp h
    obtain ⟨_, -, h⟩ := Option.bind_eq_some_iff.mp h
    exact absurd h (by simp)

end SD
