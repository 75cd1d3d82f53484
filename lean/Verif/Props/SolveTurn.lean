import Verif.Lemmas.SolveTurn
import Verif.Props.NearDissipation

/-!
# C63: turned, reflected and enlarged problems have turned, reflected and enlarged answers
-/

set_option autoImplicit false

namespace SD

open Spec Cov

/-- **C63** (axes). The grand resistance matrix of a configuration is built, in any mode, and a problem is solved with
it, in any form of input and with any particles held. Then the matrix of the turned (or reflected) configuration can be
built too, and solving the turned problem with it gives exactly the turned answer: forces and velocities turn as
vectors, torques and angular velocities as axial vectors, stresslets and rates of strain as matrices. -/
theorem C63_turn {T : ScalarTable} {P : PosData} (hP : Sensible P) {Q : Fin 3 → Fin 3 → ℝ} (hQ : Orthogonal Q)
    {c : ℝ} (hc : 0 < c) (hT : Tabulated T.lam P c) {last last' : NDMat}
    {reg dragM only bb : Bool} {mu : ℝ} {R C : NDMat}
    (hl : dragM = false → reg = false → (∀ i j, last.get i j = last.get j i) ∧
      (last.rows = side P ∧ last.cols = side P) ∧ (last'.rows = side P ∧ last'.cols = side P) ∧
      ∀ v v', GrandTurned P.Ns P.Nd Q v v' →
        GrandTurned P.Ns P.Nd Q (mulVec (side P) last.get v) (mulVec (side P) last'.get v'))
    (h : generate_grand_resistance_matrix T P last reg c dragM only mu bb = some (R, C))
    (hpd : PosDef R.get (side P)) {form : InputForm} {x : Inputs} {p : Outputs} (hf : formAllowed form P.Ns)
    (hx : Sized P.Ns P.Nd x) (tx : Traceless x) (hs : solveForm form false P.Ns P.Nd R x = some p) :
    ∃ R' C', generate_grand_resistance_matrix T (turned P Q) last' reg c dragM only mu bb = some (R', C') ∧
      ∃ q, solveForm form false P.Ns P.Nd R' ((turning Q).inputs x x) = some q ∧
        SameMotion P.Ns ((turning Q).outputs p p) q := by
  obtain ⟨R', C', h', hR⟩ := C56_grand (last' := last') hP hQ hc hT (fun a b => (hl a b).2.2.2) h
  obtain ⟨d1, -⟩ := grand_dims hP hc hT (fun a b => (hl a b).2.1) h
  obtain ⟨d2, -⟩ := grand_dims (turned_sensible hP hQ) hc (tabulated_turned hQ hT) (fun a b => (hl a b).2.2.1) h'
  refine ⟨R', C', h', ?_⟩
  have act : ∀ {u o ub hd : List Vec3} {e : List Mat3}, u.length = P.Ns → o.length = P.Ns → P.Ns ≤ e.length →
      ub.length = P.Nd → hd.length = P.Nd → (∀ m ∈ e.take P.Ns, SymTraceless m) →
      Acts P.Ns P.Nd (turnK Q) (fun u => u) (pack P.Ns P.Nd u o e ub hd)
        (pack P.Ns P.Nd (List.zipWith (turning Q).U u u) (List.zipWith (turning Q).O o o)
          (List.zipWith (turning Q).E e e) (List.zipWith (turning Q).U ub ub) (List.zipWith (turning Q).U hd hd)) := by
    intro u o ub hd e h1 h2 h3 h4 h5 h6
    refine pack_rule h1 h2 h3 h4 h5 h6 ?_ ?_ ?_
    · intro v i F hF
      simp only [mix, turnK, hF]
      rfl
    · intro v i F hF
      simp only [mix, turnK, hF, turning, turnVec, Finset.mul_sum, mul_assoc]
    · intro m p F hm hF
      simp only [mix, turnK, hF]
      exact five_turn hQ hm p
  refine solve_acts (Kl := turnK Q) (Km := turnK Q) (turning Q) hf hx d1.1 d2.1 d2.2
    (fun i _ j _ => (C25_symmetric hP hc hT (fun a b => (hl a b).1) h i j).1) hpd tx one_pos (paired_turn hQ _ _)
    (undo_turnK hQ (Renum.id _ _)) (fun v v' hv => acts_turn.mpr (hR v v' (acts_turn.mp hv)).1) ?_ ?_
    (fun e he => turnMat_clean hQ he) (fun e he => turnMat_clean hQ he) hs
  · intro p s t
    exact act s.Ua s.Oa s.Ea s.Ub s.HalfDUb t.2
  · intro p s t
    exact act s.Fa s.Ta s.Sa.ge s.Fb s.DFb fun m hm => t.1 m (List.mem_of_mem_take hm)

/-- **C63** (units). In the same way: if all lengths are multiplied by `k`, given forces kept, given torques and
stresslets multiplied by `k`, given velocities divided by `k` and given rates of strain by `k²`, then so are the
computed ones, and angular velocities are divided by `k²`. -/
theorem C63_enlarge {T : ScalarTable} {P : PosData} {k : ℝ} (hk : 0 < k) (hP : Sensible P)
    (hP' : Sensible (rescaled P k)) {c : ℝ} (hc : 0 < c) (hT : Tabulated T.lam P c) {last last' : NDMat}
    {reg dragM only bb : Bool} {mu : ℝ} {R C : NDMat}
    (hl : dragM = false → reg = false → (∀ i j, last.get i j = last.get j i) ∧
      (last.rows = side P ∧ last.cols = side P) ∧ (last'.rows = side P ∧ last'.cols = side P) ∧
      ∀ v v', MotionsRescaled P.Ns P.Nd k v v' →
        LoadsRescaled P.Ns P.Nd k (mulVec (side P) last.get v) (mulVec (side P) last'.get v'))
    (h : generate_grand_resistance_matrix T P last reg c dragM only mu bb = some (R, C))
    (hpd : PosDef R.get (side P)) {form : InputForm} {x : Inputs} {p : Outputs} (hf : formAllowed form P.Ns)
    (hx : Sized P.Ns P.Nd x) (tx : Traceless x) (hs : solveForm form false P.Ns P.Nd R x = some p) :
    ∃ R' C', generate_grand_resistance_matrix T (rescaled P k) last' reg c dragM only mu bb = some (R', C') ∧
      ∃ q, solveForm form false P.Ns P.Nd R' ((enlarging k).inputs x x) = some q ∧
        SameMotion P.Ns ((enlarging k).outputs p p) q := by
  obtain ⟨R', C', h', hR⟩ := C55_grand (last' := last') hk hP hP' hc hT (fun a b => (hl a b).2.2.2) h
  obtain ⟨d1, -⟩ := grand_dims hP hc hT (fun a b => (hl a b).2.1) h
  obtain ⟨d2, -⟩ := grand_dims hP' hc (tabulated_rescaled hk hT) (fun a b => (hl a b).2.2.1) h'
  refine ⟨R', C', h', ?_⟩
  have k0 : k ≠ 0 := hk.ne'
  refine solve_acts (Kl := loadK k) (Km := motionK k) (enlarging k) hf hx d1.1 d2.1 d2.2
    (fun i _ j _ => (C25_symmetric hP hc hT (fun a b => (hl a b).1) h i j).1) hpd tx (by positivity : (0 : ℝ) < 1 / k)
    (paired_scale hk _ _) (undo_motion hk _ _)
    (fun v v' hv => (acts_load hk).mpr (hR v v' ((acts_motion hk).mp hv)).1) ?_ ?_ ?_ ?_ hs
  · intro p s t
    refine pack_rule s.Ua s.Oa s.Ea s.Ub s.HalfDUb t.2 ?_ ?_ ?_
    · intro v i F hF
      simp only [motionK, mix_diagK, hF, enlarging, lengths]
      rw [add_zero, pow_one]; ring
    · intro v i F hF
      simp only [motionK, mix_diagK, hF, enlarging, lengths]
      ring
    · intro m p F hm hF
      simp only [motionK, mix_diagK, hF, enlarging, lengths]
      have : (fun i j => m i j / k ^ 2) = fun i j => 1 / k ^ (1 + 1) * m i j := by
        funext i j; ring
      rw [this, five_mul_left hk]
  · intro p s t
    refine pack_rule s.Fa s.Ta s.Sa.ge s.Fb s.DFb (fun m hm => t.1 m (List.mem_of_mem_take hm)) ?_ ?_ ?_
    · intro v i F hF
      simp only [loadK, mix_diagK, hF, enlarging, lengths]
      rw [pow_zero, one_mul]
    · intro v i F hF
      simp only [loadK, mix_diagK, hF, enlarging, lengths]
      rw [pow_one]
    · intro m p F hm hF
      simp only [loadK, mix_diagK, hF, enlarging, lengths]
      rw [five_mul_left hk, pow_one]
  · exact fun e he => mul_clean k he
  · intro e he
    have : (enlarging k).E e e = fun i j => 1 / k ^ 2 * e i j := by
      funext i j; simp only [enlarging]; ring
    rw [this]
    exact mul_clean _ he

/-! ## The hypotheses can be met -/

/-- A sphere pushed along `x`, two dumbbells, and a straining motion. -/
noncomputable def starInp : Inputs where
  Fa := [num3 ![1, 0, 0]]
  Ta := [num3 ![0, 2, 0]]
  Sa := [fun _ _ => none]
  Fb := [num3 ![1, 1, 0], num3 0]
  DFb := [num3 0, num3 ![0, 1, 7]]
  Ua := [blank]
  Ea := [num33 ![![0, 1, 0], ![1, 0, 0], ![0, 0, 0]]]
  Ub := [blank, blank]
  HalfDUb := [blank, blank]

theorem starInp_sized : Sized 1 2 starInp := ⟨rfl, rfl, rfl, rfl, rfl, rfl, rfl, rfl⟩

theorem starInp_complete : Complete .fte 1 2 starInp := by
  refine ⟨?_, ?_, ⟨le_rfl, ?_⟩, ?_, ?_⟩
  all_goals
    simp only [starInp, List.mem_cons, List.not_mem_nil, or_false, forall_eq_or_imp, forall_eq]
    simp only [given_num3, given_num33, and_self]

theorem starInp_traceless : Traceless starInp := by
  constructor
  · intro m hm
    simp only [starInp, List.mem_cons, List.not_mem_nil, or_false] at hm
    have := congrFun (congrFun hm 0) 0
    simp [num33] at this
  · intro m hm
    simp only [starInp, List.mem_cons, List.not_mem_nil, or_false] at hm
    rw [num33_inj hm]
    refine ⟨?_, by simp⟩
    intro i j; fin_cases i <;> fin_cases j <;> rfl

theorem starP_tabulated : Tabulated dampT.lam starP 5 := by
  intro x hx y hy _
  rw [starP_radius hx, starP_radius hy]
  exact ⟨1, by norm_num [dampT], by norm_num⟩

/-- A sphere between two dumbbells, far and near field, is turned. -/
example : ∃ R C p R' C' q,
    generate_grand_resistance_matrix dampT starP (NDMat.zeros 0 0) true 5 false false 3 true = some (R, C) ∧
    solveForm .fte false 1 2 R starInp = some p ∧
    generate_grand_resistance_matrix dampT (turned starP demoQ) (NDMat.zeros 0 0) true 5 false false 3 true
      = some (R', C') ∧
    solveForm .fte false 1 2 R' ((turning demoQ).inputs starInp starInp) = some q ∧
    SameMotion 1 ((turning demoQ).outputs p p) q := by
  obtain ⟨R, C, h1, -, h2, h3⟩ := C60_solvable dampT_dissipates (k := 5) starP_sensible starP_separate (by norm_num)
    starP_tabulated (mu := 3) (by norm_num) (.inl rfl) (NDMat.zeros 0 0)
  have hf : formAllowed .fte starP.Ns := ⟨by decide, by decide⟩
  obtain ⟨p, hp⟩ := h3 hf starInp_sized starInp_complete
  obtain ⟨R', C', g, q, hq, hs⟩ := C63_turn (last' := NDMat.zeros 0 0) starP_sensible demoQ_orth (by norm_num)
    starP_tabulated (by simp) h1 h2 hf starInp_sized starInp_traceless hp
  exact ⟨R, C, p, R', C', q, h1, hp, g, hq, hs⟩

/-- The same enlarged three times. -/
example : ∃ R C p R' C' q,
    generate_grand_resistance_matrix dampT starP (NDMat.zeros 0 0) true 5 false false 3 true = some (R, C) ∧
    solveForm .fte false 1 2 R starInp = some p ∧
    generate_grand_resistance_matrix dampT (rescaled starP 3) (NDMat.zeros 0 0) true 5 false false 3 true
      = some (R', C') ∧
    solveForm .fte false 1 2 R' ((enlarging 3).inputs starInp starInp) = some q ∧
    SameMotion 1 ((enlarging 3).outputs p p) q := by
  obtain ⟨R, C, h1, -, h2, h3⟩ := C60_solvable dampT_dissipates (k := 5) starP_sensible starP_separate (by norm_num)
    starP_tabulated (mu := 3) (by norm_num) (.inl rfl) (NDMat.zeros 0 0)
  have hf : formAllowed .fte starP.Ns := ⟨by decide, by decide⟩
  obtain ⟨p, hp⟩ := h3 hf starInp_sized starInp_complete
  obtain ⟨R', C', g, q, hq, hs⟩ := C63_enlarge (k := 3) (last' := NDMat.zeros 0 0) (by norm_num) starP_sensible
    (rescaled_sensible starP_sensible (by norm_num)) (by norm_num) starP_tabulated (by simp) h1 h2 hf starInp_sized
    starInp_traceless hp
  exact ⟨R, C, p, R', C', q, h1, hp, g, hq, hs⟩

end SD
