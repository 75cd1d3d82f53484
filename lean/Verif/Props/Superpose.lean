import Verif.Lemmas.SolveRule

/-!
# C61: solutions superpose and reverse
-/

set_option autoImplicit false

namespace SD

open Finset Spec

theorem five_superpose (a b : ℝ) (e f : Mat3) (c : Fin 5) :
    five (fun k l => a * e k l + b * f k l) c = a * five e c + b * five f c := by
  fin_cases c <;> simp [five] <;> ring

theorem pack_superpose {Ns Nd : ℕ} {u o ub hd u' o' ub' hd' : List Vec3} {e e' : List Mat3} (a b : ℝ)
    (h1 : u.length = Ns) (h1' : u'.length = Ns) (h2 : o.length = Ns) (h2' : o'.length = Ns)
    (h3 : Ns ≤ e.length) (h3' : Ns ≤ e'.length) (h4 : ub.length = Nd) (h4' : ub'.length = Nd)
    (h5 : hd.length = Nd) (h5' : hd'.length = Nd) :
    ∀ i < 11 * Ns + 6 * Nd,
      pack Ns Nd (List.zipWith (fun u v k => a * u k + b * v k) u u')
        (List.zipWith (fun u v k => a * u k + b * v k) o o')
        (List.zipWith (fun u v k l => a * u k l + b * v k l) e e')
        (List.zipWith (fun u v k => a * u k + b * v k) ub ub')
        (List.zipWith (fun u v k => a * u k + b * v k) hd hd') i
      = a * pack Ns Nd u o e ub hd i + b * pack Ns Nd u' o' e' ub' hd' i := by
  apply grand_cases
  · intro p hp c
    rw [pack_u _ _ _ _ _ hp, pack_u _ _ _ _ _ hp, pack_u _ _ _ _ _ hp, getD_zip (by omega) (by omega)]
  · intro p hp c
    rw [pack_o _ _ _ _ _ hp, pack_o _ _ _ _ _ hp, pack_o _ _ _ _ _ hp, getD_zip (by omega) (by omega)]
  · intro p hp c
    rw [pack_e _ _ _ _ _ hp, pack_e _ _ _ _ _ hp, pack_e _ _ _ _ _ hp, getD_zip (by omega) (by omega),
      five_superpose]
  · intro p hp c
    rw [pack_ub _ _ _ _ _ hp, pack_ub _ _ _ _ _ hp, pack_ub _ _ _ _ _ hp, getD_zip (by omega) (by omega)]
  · intro p hp c
    rw [pack_hd _ _ _ _ _ hp, pack_hd _ _ _ _ _ hp, pack_hd _ _ _ _ _ hp, getD_zip (by omega) (by omega)]

theorem solves_superpose {Ns Nd : ℕ} {R : NDMat} {x y : Outputs} (a b : ℝ) (hx : Solves Ns Nd R x)
    (hy : Solves Ns Nd R y) : Solves Ns Nd R ((superpose a b).outputs x y) where
  rel := by
    intro i hi
    have e1 := pack_superpose a b hx.Ua hy.Ua hx.Oa hy.Oa hx.Ea hy.Ea hx.Ub hy.Ub hx.HalfDUb hy.HalfDUb
    have e2 := pack_superpose a b hx.Fa hy.Fa hx.Ta hy.Ta hx.Sa.ge hy.Sa.ge hx.Fb hy.Fb hx.DFb hy.DFb i hi
    simp only [Rule.outputs, superpose]
    rw [e2, ← hx.rel i hi, ← hy.rel i hi, mul_sum, mul_sum, ← sum_add_distrib]
    refine sum_congr rfl fun j hj => ?_
    rw [e1 j (mem_range.mp hj)]
    ring
  Fa := by simp [Rule.outputs, hx.Fa, hy.Fa]
  Ta := by simp [Rule.outputs, hx.Ta, hy.Ta]
  Sa := by simp [Rule.outputs, hx.Sa, hy.Sa]
  Fb := by simp [Rule.outputs, hx.Fb, hy.Fb]
  DFb := by simp [Rule.outputs, hx.DFb, hy.DFb]
  Ua := by simp [Rule.outputs, hx.Ua, hy.Ua]
  Oa := by simp [Rule.outputs, hx.Oa, hy.Oa]
  Ea := by simp [Rule.outputs, hx.Ea, hy.Ea]
  Ub := by simp [Rule.outputs, hx.Ub, hy.Ub]
  HalfDUb := by simp [Rule.outputs, hx.HalfDUb, hy.HalfDUb]

theorem traceless_zip {g : Mat3 → Mat3 → Mat3} {l m : List Mat3}
    (hg : ∀ e f, SymTraceless e → SymTraceless f → SymTraceless (g e f))
    (h1 : ∀ s ∈ l, SymTraceless s) (h2 : ∀ s ∈ m, SymTraceless s) :
    ∀ s ∈ List.zipWith g l m, SymTraceless s := by
  intro s hs
  obtain ⟨p, hp, rfl⟩ := List.mem_iff_getElem.mp hs
  have hp' : p < l.length ∧ p < m.length := by simpa using hp
  rw [List.getElem_zipWith]
  exact hg _ _ (h1 _ (List.getElem_mem _)) (h2 _ (List.getElem_mem _))

/-- **C61** (superposition). Two problems with the same particles held are solved by the code. Then `a` times the
inputs of the first plus `b` times those of the second are solved too, and every force, torque, stresslet, velocity,
angular velocity and rate of strain is `a` times the first plus `b` times the second. -/
theorem C61_superpose {form : InputForm} {Ns Nd : ℕ} {R : NDMat} {x y : Inputs} {p q : Outputs} (a b : ℝ)
    (hf : formAllowed form Ns) (hx : Sized Ns Nd x) (hy : Sized Ns Nd y)
    (hr : R.rows = 11 * Ns + 6 * Nd) (hc : R.cols = 11 * Ns + 6 * Nd)
    (hS : Symm R.get (11 * Ns + 6 * Nd)) (hP : PosDef R.get (11 * Ns + 6 * Nd))
    (tx : Traceless x) (ty : Traceless y) (hxy : SameFixed x y)
    (h1 : solveForm form false Ns Nd R x = some p) (h2 : solveForm form false Ns Nd R y = some q) :
    ∃ z, solveForm form false Ns Nd R ((superpose a b).inputs x y) = some z ∧
      SameMotion Ns ((superpose a b).outputs p q) z := by
  obtain ⟨s1, e1⟩ := solve_echo hf hx hr hS h1
  obtain ⟨s2, e2⟩ := solve_echo hf hy hr hS h2
  obtain ⟨u1, v1⟩ := out_traceless hf hx hr hS tx h1
  obtain ⟨u2, v2⟩ := out_traceless hf hy hr hS ty h2
  have lin : ∀ e f : Mat3, SymTraceless e → SymTraceless f → SymTraceless fun k l => a * e k l + b * f k l := by
    intro e f he hf
    refine ⟨fun i j => by dsimp only; rw [he.1 i j, hf.1 i j], ?_⟩
    linear_combination a * he.2 + b * hf.2
  refine solve_rule (superpose a b) hf hx hy hr hc hS hP s1 s2 e1 e2 hxy ?_ (solves_superpose a b s1 s2)
    (traceless_zip lin u1 u2) ?_
  · intro h0
    have c1 := C10_placeholders hx h1
    have c2 := C10_placeholders hy h2
    rcases hf.1 h0 with rfl | rfl
    · exact ⟨c1.2.2.2.2.2 h0, c2.2.2.2.2.2 h0⟩
    · obtain ⟨_, _, _, _, _, _, _, g1⟩ := c1
      obtain ⟨_, _, _, _, _, _, _, g2⟩ := c2
      exact ⟨g1, g2⟩
  · have : ((superpose a b).outputs p q).Ea.take Ns
        = List.zipWith (fun u v k l => a * u k l + b * v k l) (p.Ea.take Ns) (q.Ea.take Ns) := by
      simp only [Rule.outputs, superpose, List.take_zipWith]
    rw [this]
    exact traceless_zip lin v1 v2

/-- **C61** (reversal). Reversing everything that is prescribed reverses everything that is computed. -/
theorem C61_reverse {form : InputForm} {Ns Nd : ℕ} {R : NDMat} {x : Inputs} {p : Outputs}
    (hf : formAllowed form Ns) (hx : Sized Ns Nd x)
    (hr : R.rows = 11 * Ns + 6 * Nd) (hc : R.cols = 11 * Ns + 6 * Nd)
    (hS : Symm R.get (11 * Ns + 6 * Nd)) (hP : PosDef R.get (11 * Ns + 6 * Nd)) (tx : Traceless x)
    (h : solveForm form false Ns Nd R x = some p) :
    ∃ z, solveForm form false Ns Nd R ((superpose (-1) 0).inputs x x) = some z ∧
      z.Fa = p.Fa.map (fun u k => -u k) ∧ z.Ta = p.Ta.map (fun u k => -u k) ∧
      z.Sa = p.Sa.map (fun u k l => -u k l) ∧ z.Fb = p.Fb.map (fun u k => -u k) ∧
      z.DFb = p.DFb.map (fun u k => -u k) ∧ z.Ua = p.Ua.map (fun u k => -u k) ∧
      z.Oa = p.Oa.map (fun u k => -u k) ∧ z.Ea.take Ns = (p.Ea.take Ns).map (fun u k l => -u k l) ∧
      z.Ub = p.Ub.map (fun u k => -u k) ∧ z.HalfDUb = p.HalfDUb.map (fun u k => -u k) := by
  obtain ⟨z, hz, s⟩ := C61_superpose (-1) 0 hf hx hx hr hc hS hP tx tx ⟨fun _ => Iff.rfl, fun _ => Iff.rfl⟩ h h
  have e : ∀ l : List Vec3, List.zipWith (fun u v k => -1 * u k + 0 * v k) l l = l.map fun u k => -u k := by
    intro l
    rw [List.zipWith_self]
    simp
  have e' : ∀ l : List Mat3, List.zipWith (fun u v k m => -1 * u k m + 0 * v k m) l l = l.map fun u k m => -u k m := by
    intro l
    rw [List.zipWith_self]
    simp
  refine ⟨z, hz, ?_, ?_, ?_, ?_, ?_, ?_, ?_, ?_, ?_, ?_⟩
  · rw [← s.Fa]; exact e _
  · rw [← s.Ta]; exact e _
  · rw [← s.Sa]; exact e' _
  · rw [← s.Fb]; exact e _
  · rw [← s.DFb]; exact e _
  · rw [← s.Ua]; exact e _
  · rw [← s.Oa]; exact e _
  · rw [← s.Ea, ← e', ← List.take_zipWith]; rfl
  · rw [← s.Ub]; exact e _
  · rw [← s.HalfDUb]; exact e _

theorem pack_zero (Ns Nd n m : ℕ) (i : ℕ) : pack Ns Nd (List.replicate Ns 0) (List.replicate Ns 0)
    (List.replicate n 0) (List.replicate m 0) (List.replicate m 0) i = 0 := by
  have z : ∀ k j, (List.replicate k (0 : Vec3)).getD j 0 = 0 := by
    intro k j
    by_cases h : j < k
    · rw [List.getD_eq_getElem _ _ (by simpa using h)]; simp
    · rw [List.getD_eq_default]; simpa using h
  have z' : ∀ k j, (List.replicate k (0 : Mat3)).getD j 0 = 0 := by
    intro k j
    by_cases h : j < k
    · rw [List.getD_eq_getElem _ _ (by simpa using h)]; simp
    · rw [List.getD_eq_default]; simpa using h
  have f : ∀ c, five (0 : Mat3) c = 0 := by
    intro c; fin_cases c <;> simp [five]
  unfold pack
  simp only [z, z', f]
  simp

theorem solves_rest (Ns Nd : ℕ) {n : ℕ} (hn : Ns ≤ n) (R : NDMat) : Solves Ns Nd R (atRest Ns Nd n) where
  rel := by
    intro i _
    simp only [atRest, pack_zero, mul_zero, sum_const_zero]
  Fa := List.length_replicate
  Ta := List.length_replicate
  Sa := List.length_replicate
  Fb := List.length_replicate
  DFb := List.length_replicate
  Ua := List.length_replicate
  Oa := List.length_replicate
  Ea := by simpa [atRest] using hn
  Ub := List.length_replicate
  HalfDUb := List.length_replicate

theorem traceless_zero : SymTraceless (0 : Mat3) := ⟨fun _ _ => rfl, by simp⟩

/-- **C61** (rest). If everything that is prescribed is zero, in any form of input and with any particles held,
nothing moves and no force acts. -/
theorem C61_rest {form : InputForm} {Ns Nd n : ℕ} {R : NDMat} {x : Inputs}
    (hf : formAllowed form Ns) (hx : Sized Ns Nd x) (hn : Ns ≤ n)
    (hr : R.rows = 11 * Ns + 6 * Nd) (hc : R.cols = 11 * Ns + 6 * Nd)
    (hS : Symm R.get (11 * Ns + 6 * Nd)) (hP : PosDef R.get (11 * Ns + 6 * Nd))
    (he : Echo form Ns Nd x (atRest Ns Nd n)) (h0 : Ns = 0 → ∀ m ∈ x.Ea, Given33 m) :
    ∃ z, solveForm form false Ns Nd R x = some z ∧ SameMotion Ns (atRest Ns Nd n) z :=
  C09_forms_agree hf hx hr hc hS hP (solves_rest Ns Nd hn R)
    (fun m hm => by rw [List.eq_of_mem_replicate hm]; exact traceless_zero)
    (fun m hm => by rw [List.eq_of_mem_replicate (List.mem_of_mem_take hm)]; exact traceless_zero) he h0

/-! ## The hypotheses can be met -/

theorem demoFTE_traceless : Traceless demoFTE := by
  have key : ∀ m : Mat3, num33 m = num33 ![![0, 0, 1], ![0, 0, 0], ![1, 0, 0]] → SymTraceless m := by
    intro m h
    rw [num33_inj h]
    refine ⟨?_, by simp⟩
    intro i j; fin_cases i <;> fin_cases j <;> rfl
  constructor
  · intro m hm
    simp only [demoFTE, List.mem_cons, List.not_mem_nil, or_false] at hm
    rcases hm with h | h
    · rw [num33_inj h]
      refine ⟨?_, by simp⟩
      intro i j; fin_cases i <;> fin_cases j <;> rfl
    · rw [num33_inj h]; exact traceless_zero
  · intro m hm
    simp only [demoFTE, List.mem_cons, List.not_mem_nil, or_false, or_self] at hm
    exact key m hm

/-- Twice one problem minus three times another: one sphere held, one driven, and a dumbbell. -/
example : ∃ p q z, solveForm .fte false 2 1 (demoR 28) demoFTE = some p ∧
    solveForm .fte false 2 1 (demoR 28) { demoFTE with Fa := [num3 1, num3 0] } = some q ∧
    solveForm .fte false 2 1 (demoR 28)
      ((superpose 2 (-3)).inputs demoFTE { demoFTE with Fa := [num3 1, num3 0] }) = some z ∧
    SameMotion 2 ((superpose 2 (-3)).outputs p q) z := by
  obtain ⟨p, hp⟩ := demo_fte
  have hs : Sized 2 1 { demoFTE with Fa := [num3 1, num3 0] } := ⟨rfl, rfl, rfl, rfl, rfl, rfl, rfl, rfl⟩
  obtain ⟨q, hq⟩ := C09_spd_succeeds (form := .fte) (R := demoR 28) ⟨by decide, by decide⟩ hs rfl rfl
    (demoR_symm _) (demoR_posDef _)
    (by
      obtain ⟨_, h2, h3, h4, h5⟩ := demoFTE_complete.1
      refine ⟨?_, h2, h3, h4, h5⟩
      simp only [List.mem_cons, List.not_mem_nil, or_false, forall_eq_or_imp, forall_eq]
      exact ⟨given_num3 _, given_num3 _⟩)
  obtain ⟨z, hz, h⟩ := C61_superpose 2 (-3) ⟨by decide, by decide⟩ demoFTE_sized hs rfl rfl (demoR_symm 28)
    (demoR_posDef 28) demoFTE_traceless demoFTE_traceless ⟨fun _ => Iff.rfl, fun _ => Iff.rfl⟩ hp hq
  exact ⟨p, q, z, hp, hq, hz, h⟩

/-- The reversed problem exists for a mixture of held and driven particles. -/
example : ∃ p z, solveForm .ufte false 2 1 (demoR 28) demoFTE = some p ∧
    solveForm .ufte false 2 1 (demoR 28) ((superpose (-1) 0).inputs demoFTE demoFTE) = some z ∧
    z.Ua = p.Ua.map fun u k => -u k := by
  obtain ⟨p, hp⟩ := demo_ufte
  obtain ⟨z, hz, _, _, _, _, _, h, _⟩ := C61_reverse ⟨by decide, by decide⟩ demoFTE_sized rfl rfl (demoR_symm 28)
    (demoR_posDef 28) demoFTE_traceless hp
  exact ⟨p, z, hp, hz, h⟩

/-- One sphere held still, one free of force, and a free dumbbell. -/
example : ∃ z, solveForm .ufte false 2 1 (demoR 28)
    { Fa := [blank, num3 0], Ta := [num3 0, num3 0], Sa := [fun _ _ => none, fun _ _ => none], Fb := [num3 0],
      DFb := [num3 0], Ua := [num3 0, blank], Ea := [num33 0, num33 0], Ub := [blank], HalfDUb := [blank] } = some z ∧
    SameMotion 2 (atRest 2 1 2) z :=
  C61_rest ⟨by decide, by decide⟩ ⟨rfl, rfl, rfl, rfl, rfl, rfl, rfl, rfl⟩ le_rfl rfl rfl (demoR_symm 28)
    (demoR_posDef 28) ⟨1, by omega, rfl, rfl, rfl, rfl, rfl, rfl⟩ (by omega)

end SD
