import Verif.Lemmas.Power
import Verif.Props.Superpose

/-!
# C62: the reciprocal theorem, dissipation and least dissipation, for what the solver returns
-/

set_option autoImplicit false

open Finset

namespace SD

open Spec

variable {form form' : InputForm} {Ns Nd : ℕ} {R : NDMat} {x y : Inputs} {p q : Outputs}

/-- **C62** (reciprocal theorem). Two problems about the same particles, in any two forms of input and with any
particles held, are solved by the code. Then the loads of the first do as much work against the motions of the second
as the loads of the second against the motions of the first. -/
theorem C62_reciprocal (hf : formAllowed form Ns) (hf' : formAllowed form' Ns) (hx : Sized Ns Nd x)
    (hy : Sized Ns Nd y) (hr : R.rows = 11 * Ns + 6 * Nd) (hS : Symm R.get (11 * Ns + 6 * Nd))
    (tx : Traceless x) (ty : Traceless y) (h1 : solveForm form false Ns Nd R x = some p)
    (h2 : solveForm form' false Ns Nd R y = some q) : power Ns Nd p q = power Ns Nd q p := by
  obtain ⟨s1, -⟩ := solve_echo hf hx hr hS h1
  obtain ⟨s2, -⟩ := solve_echo hf' hy hr hS h2
  have t1 := out_traceless hf hx hr hS tx h1
  have t2 := out_traceless hf' hy hr hS ty h2
  rw [power_form s1 s2 t1 t2, power_form s2 s1 t2 t1, sum_comm]
  refine sum_congr rfl fun i hi => sum_congr rfl fun j hj => ?_
  rw [hS j (mem_range.mp hj) i (mem_range.mp hi)]
  ring

theorem still_motions {s : Outputs} (hs : Solves Ns Nd R s) (ts : Clean Ns s)
    (h : ∀ i < 11 * Ns + 6 * Nd, motions Ns Nd s i = 0) : MovesAs Ns s (atRest Ns Nd Ns) := by
  have hz := solves_rest Ns Nd (le_refl Ns) R
  refine pack_inj hs.Ua hz.Ua hs.Oa hz.Oa hs.Ea hz.Ea hs.Ub hz.Ub hs.HalfDUb hz.HalfDUb ts.2 ?_ ?_
  · intro m hm
    rw [List.eq_of_mem_replicate (List.mem_of_mem_take hm)]
    exact traceless_zero
  · intro i hi
    exact (h i hi).trans (pack_zero Ns Nd Ns Nd i).symm

/-- **C62** (dissipation). The loads never do negative work against the motions that go with them, and they do no work
only if nothing moves at all. -/
theorem C62_dissipates (hf : formAllowed form Ns) (hx : Sized Ns Nd x) (hr : R.rows = 11 * Ns + 6 * Nd)
    (hS : Symm R.get (11 * Ns + 6 * Nd)) (hP : PosDef R.get (11 * Ns + 6 * Nd)) (tx : Traceless x)
    (h : solveForm form false Ns Nd R x = some p) :
    0 ≤ power Ns Nd p p ∧ (power Ns Nd p p = 0 → MovesAs Ns p (atRest Ns Nd Ns)) := by
  obtain ⟨s, -⟩ := solve_echo hf hx hr hS h
  have t := out_traceless hf hx hr hS tx h
  rw [power_form s s t t]
  by_cases hz : ∃ i < 11 * Ns + 6 * Nd, motions Ns Nd p i ≠ 0
  · exact ⟨(hP _ hz).le, fun e => absurd e (hP _ hz).ne'⟩
  · push Not at hz
    refine ⟨le_of_eq (Eq.symm (sum_eq_zero fun i hi => sum_eq_zero fun j _ => ?_)), fun _ => still_motions s t hz⟩
    rw [hz i (mem_range.mp hi), zero_mul, zero_mul]

/-- **C62** (least dissipation). The code solves a problem in which every particle, in every way it can move, is either
made to move or left free of load. Then any other motion of the same particles with those prescribed motions dissipates
at least as much, and exactly as much only if it is the same motion. -/
theorem C62_least (hf : formAllowed form Ns) (hf' : formAllowed form' Ns) (hx : Sized Ns Nd x)
    (hy : Sized Ns Nd y) (hr : R.rows = 11 * Ns + 6 * Nd) (hS : Symm R.get (11 * Ns + 6 * Nd))
    (hP : PosDef R.get (11 * Ns + 6 * Nd)) (tx : Traceless x) (ty : Traceless y)
    (h1 : solveForm form false Ns Nd R x = some p) (h2 : solveForm form' false Ns Nd R y = some q)
    (hpq : HeldOrFree Ns Nd p q) :
    power Ns Nd p p ≤ power Ns Nd q q ∧ (power Ns Nd q q = power Ns Nd p p → MovesAs Ns p q) := by
  obtain ⟨s1, -⟩ := solve_echo hf hx hr hS h1
  obtain ⟨s2, -⟩ := solve_echo hf' hy hr hS h2
  have t1 := out_traceless hf hx hr hS tx h1
  have t2 := out_traceless hf' hy hr hS ty h2
  have e := power_diff hpq
  have e' := C62_reciprocal hf hf' hx hy hr hS tx ty h1 h2
  have key : power Ns Nd q q - power Ns Nd p p = ∑ i ∈ range (11 * Ns + 6 * Nd), ∑ j ∈ range (11 * Ns + 6 * Nd),
      (motions Ns Nd q i - motions Ns Nd p i) * R.get i j * (motions Ns Nd q j - motions Ns Nd p j) := by
    have : power Ns Nd q q - power Ns Nd p p
        = power Ns Nd q q - power Ns Nd p q - power Ns Nd q p + power Ns Nd p p := by rw [← e', e]; ring
    rw [this, power_form s2 s2 t2 t2, power_form s1 s2 t1 t2, power_form s2 s1 t2 t1, power_form s1 s1 t1 t1,
      ← sum_sub_distrib, ← sum_sub_distrib, ← sum_add_distrib]
    refine sum_congr rfl fun i _ => ?_
    rw [← sum_sub_distrib, ← sum_sub_distrib, ← sum_add_distrib]
    exact sum_congr rfl fun j _ => by ring
  by_cases hz : ∃ i < 11 * Ns + 6 * Nd, motions Ns Nd q i - motions Ns Nd p i ≠ 0
  · have := hP (fun i => motions Ns Nd q i - motions Ns Nd p i) hz
    exact ⟨by linarith, fun h => by linarith⟩
  · push Not at hz
    have z : power Ns Nd q q - power Ns Nd p p = 0 := by
      rw [key]
      refine sum_eq_zero fun i hi => sum_eq_zero fun j _ => ?_
      rw [hz i (mem_range.mp hi), zero_mul, zero_mul]
    refine ⟨by linarith, fun _ => ?_⟩
    exact pack_inj s1.Ua s2.Ua s1.Oa s2.Oa s1.Ea s2.Ea s1.Ub s2.Ub s1.HalfDUb s2.HalfDUb t1.2 t2.2
      fun i hi => (sub_eq_zero.mp (hz i hi)).symm

/-! ## The hypotheses can be met -/

theorem mixed_sized : Sized 2 1 { demoFTE with Ua := [num3 ![5, 0, 0], blank], Fa := [blank, num3 1] } :=
  ⟨rfl, rfl, rfl, rfl, rfl, rfl, rfl, rfl⟩

theorem mixed_solved : ∃ q, solveForm .ufte false 2 1 (demoR 28)
    { demoFTE with Ua := [num3 ![5, 0, 0], blank], Fa := [blank, num3 1] } = some q := by
  refine C09_spd_succeeds ⟨by decide, by decide⟩ mixed_sized rfl rfl (demoR_symm _) (demoR_posDef _) ?_
  obtain ⟨k, hk, _, _, _, h3, h4, h5, h6⟩ := demoFTE_complete.2.2
  refine ⟨1, by omega, ?_, ?_, ?_, h3, h4, h5, h6⟩
  · intro v hv
    rw [List.mem_singleton.mp hv]
    exact given_num3 _
  · intro v hv
    exact List.mem_singleton.mp hv
  · intro v hv
    rw [List.mem_singleton.mp hv]
    exact given_num3 _

/-- One problem with given forces, one with the first sphere held at a velocity. -/
example : ∃ p q, solveForm .fte false 2 1 (demoR 28) demoFTE = some p ∧
    solveForm .ufte false 2 1 (demoR 28)
      { demoFTE with Ua := [num3 ![5, 0, 0], blank], Fa := [blank, num3 1] } = some q ∧
    power 2 1 p q = power 2 1 q p := by
  obtain ⟨p, hp⟩ := demo_fte
  obtain ⟨q, hq⟩ := mixed_solved
  exact ⟨p, q, hp, hq, C62_reciprocal ⟨by decide, by decide⟩ ⟨by decide, by decide⟩ demoFTE_sized mixed_sized rfl
    (demoR_symm 28) demoFTE_traceless demoFTE_traceless hp hq⟩

example : ∃ p, solveForm .fte false 2 1 (demoR 28) demoFTE = some p ∧ 0 ≤ power 2 1 p p := by
  obtain ⟨p, hp⟩ := demo_fte
  exact ⟨p, hp, (C62_dissipates ⟨by decide, by decide⟩ demoFTE_sized rfl (demoR_symm 28) (demoR_posDef 28)
    demoFTE_traceless hp).1⟩

/-- The same strain, no forces and no torques. -/
noncomputable def freeFTE : Inputs :=
  { demoFTE with
    Fa := [num3 0, num3 0]
    Ta := [num3 0, num3 0]
    Fb := [num3 0]
    DFb := [num3 0] }

theorem freeFTE_solved : ∃ p, solveForm .fte false 2 1 (demoR 28) freeFTE = some p := by
  refine C09_spd_succeeds ⟨by decide, by decide⟩ ⟨rfl, rfl, rfl, rfl, rfl, rfl, rfl, rfl⟩ rfl rfl (demoR_symm _)
    (demoR_posDef _) ⟨?_, ?_, demoFTE_complete.1.2.2.1, ?_, ?_⟩
  all_goals
    simp only [freeFTE, List.mem_cons, List.not_mem_nil, or_false, or_self, forall_eq]
    exact given_num3 _

/-- Freely suspended particles in a straining motion dissipate no more than the same particles driven by forces in the
same straining motion. -/
example : ∃ p q, solveForm .fte false 2 1 (demoR 28) freeFTE = some p ∧
    solveForm .fte false 2 1 (demoR 28) demoFTE = some q ∧ power 2 1 p p ≤ power 2 1 q q := by
  obtain ⟨p, hp⟩ := freeFTE_solved
  obtain ⟨q, hq⟩ := demo_fte
  have sz : Sized 2 1 freeFTE := ⟨rfl, rfl, rfl, rfl, rfl, rfl, rfl, rfl⟩
  obtain ⟨-, a1, a2, a3, a4, a5⟩ := solve_echo (form := .fte) ⟨by decide, by decide⟩ sz rfl (demoR_symm 28) hp
  obtain ⟨-, -, -, b3, -, -⟩ := solve_echo (form := .fte) ⟨by decide, by decide⟩ demoFTE_sized rfl (demoR_symm 28) hq
  have zero : ∀ {l : List Vec3} {n : ℕ}, List.replicate n (num3 0) = l.map num3 → ∀ i, l.getD i 0 = 0 := by
    intro l n h i
    by_cases hi : i < l.length
    · rw [List.getD_eq_getElem _ _ hi]
      have hm : num3 l[i] ∈ List.replicate n (num3 0) := h ▸ List.mem_map_of_mem (List.getElem_mem hi)
      exact num3_inj (List.eq_of_mem_replicate hm)
    · exact List.getD_eq_default _ _ (not_lt.mp hi)
  have eE : p.Ea = q.Ea := map33_inj a3 b3
  refine ⟨p, q, hp, hq, (C62_least (form := .fte) (form' := .fte) ⟨by decide, by decide⟩ ⟨by decide, by decide⟩ sz
    demoFTE_sized rfl (demoR_symm 28) (demoR_posDef 28) demoFTE_traceless demoFTE_traceless hp hq ?_).1⟩
  exact ⟨fun i _ => ⟨Or.inr (zero (n := 2) a1 i), Or.inr (zero (n := 2) a2 i), Or.inl (by rw [eE])⟩,
    fun i _ => ⟨Or.inr (zero (n := 1) a4 i), Or.inr (zero (n := 1) a5 i)⟩⟩

end SD
