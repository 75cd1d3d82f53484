import Verif.Props.TwoSpheres
import Verif.Props.MidfieldTable
import Verif.Model.Tables

/-!
# Tables made by the scripts: C57 (combined table), C58 (drag-only form), C18 (numbering with the real tables)
-/

set_option autoImplicit false

namespace SD

open Spec Cov TwoSphere

/-! ## C57: distances and scalars stay together -/

/-- Every row of `T` holds a row of `A` or `B` next to the distance it belongs to. -/
def Spec.Beside (A B T : ScalarTable) : Prop :=
  ∀ n < T.sDash.length,
    (∃ m < A.sDash.length, T.sDash.getD n 0 = A.sDash.getD m 0 ∧ ∀ k g l, T.raw k g n l = A.raw k g m l) ∨
      ∃ m < B.sDash.length, T.sDash.getD n 0 = B.sDash.getD m 0 ∧ ∀ k g l, T.raw k g n l = B.raw k g m l

/-- A table in which every scalar is the distance it belongs to. -/
def Spec.rulerTable (ss lams : List ℝ) : ScalarTable := ⟨ss, lams, fun _ _ n _ => ss.getD n 0⟩

theorem combine_lam {A B T : ScalarTable} (h : combine_scalars A B = some T) : T.lam = A.lam := by
  unfold combine_scalars at h
  split_ifs at h
  rw [← Option.some.inj h]

theorem combine_raw {A B T : ScalarTable} (h : combine_scalars A B = some T) (k g n l : ℕ) :
    T.raw k g n l = if n < A.sDash.length then A.raw k g n l else B.raw k g (n - A.sDash.length) l := by
  unfold combine_scalars at h
  split_ifs at h
  rw [← Option.some.inj h]

theorem combine_perm {A B T : ScalarTable} (h : combine_scalars A B = some T) :
    T.sDash.Perm (A.sDash ++ B.sDash) := by
  unfold combine_scalars at h
  split_ifs at h
  rw [← Option.some.inj h]
  exact List.mergeSort_perm _ _

theorem combine_sorted {A B T : ScalarTable} (h : combine_scalars A B = some T) : T.sDash.Pairwise (· ≤ ·) := by
  unfold combine_scalars at h
  split_ifs at h
  rw [← Option.some.inj h]
  have := List.pairwise_mergeSort (le := fun a b : ℝ => decide (a ≤ b))
    (fun a b c h1 h2 => by simp only [decide_eq_true_eq] at *; linarith)
    (fun a b => by simp only [Bool.or_eq_true, decide_eq_true_eq]; exact le_total a b) (A.sDash ++ B.sDash)
  simpa using this

theorem combine_sDash {A B T : ScalarTable} (h : combine_scalars A B = some T)
    (ho : (A.sDash ++ B.sDash).Pairwise (· ≤ ·)) : T.sDash = A.sDash ++ B.sDash :=
  (combine_perm h).eq_of_pairwise (fun _ _ _ _ h1 h2 => le_antisymm h1 h2) (combine_sorted h) ho

/-- **C57** (partial: the full claim is that scalars and distances stay together for every pair of input tables; this
needs all near-field distances to come first, see `C57_order`). If the distances of the two tables, one list after
the other, ascend, then the combined table holds every row of both tables beside its distance. -/
theorem C57_aligned_partial {A B T : ScalarTable} (h : combine_scalars A B = some T)
    (ho : (A.sDash ++ B.sDash).Pairwise (· ≤ ·)) :
    Beside A B T ∧ T.sDash.Pairwise (· ≤ ·) ∧ T.lam = A.lam ∧
      (∀ m < A.sDash.length, ∃ n < T.sDash.length, T.sDash.getD n 0 = A.sDash.getD m 0 ∧
        ∀ k g l, T.raw k g n l = A.raw k g m l) ∧
      ∀ m < B.sDash.length, ∃ n < T.sDash.length, T.sDash.getD n 0 = B.sDash.getD m 0 ∧
        ∀ k g l, T.raw k g n l = B.raw k g m l := by
  have e := combine_sDash h ho
  have left : ∀ m < A.sDash.length, m < T.sDash.length ∧ T.sDash.getD m 0 = A.sDash.getD m 0 ∧
      ∀ k g l, T.raw k g m l = A.raw k g m l := by
    intro m hm
    refine ⟨by rw [e, List.length_append]; omega, ?_, fun k g l => by rw [combine_raw h, if_pos hm]⟩
    rw [e, List.getD_append _ _ _ _ hm]
  have right : ∀ m < B.sDash.length, A.sDash.length + m < T.sDash.length ∧
      T.sDash.getD (A.sDash.length + m) 0 = B.sDash.getD m 0 ∧
      ∀ k g l, T.raw k g (A.sDash.length + m) l = B.raw k g m l := by
    intro m hm
    refine ⟨by rw [e, List.length_append]; omega, ?_, fun k g l => by
      rw [combine_raw h, if_neg (by omega), Nat.add_sub_cancel_left]⟩
    rw [e, List.getD_append_right _ _ _ _ (by omega), Nat.add_sub_cancel_left]
  refine ⟨fun n hn => ?_, combine_sorted h, combine_lam h, fun m hm => ⟨m, left m hm⟩, fun m hm => ⟨_, right m hm⟩⟩
  rw [e, List.length_append] at hn
  by_cases hA : n < A.sDash.length
  · exact .inl ⟨n, hA, (left n hA).2⟩
  · refine .inr ⟨n - A.sDash.length, by omega, ?_⟩
    have := (right (n - A.sDash.length) (by omega)).2
    rwa [Nat.add_sub_cancel' (by omega)] at this

/-- **C57** (the order is needed). If two tables in which every scalar names its own distance are combined, and every
scalar still stands beside its distance, then the distances of the two tables, one list after the other, ascend. -/
theorem C57_order {ss mm lams : List ℝ} {T : ScalarTable}
    (h : combine_scalars (rulerTable ss lams) (rulerTable mm lams) = some T)
    (hb : Beside (rulerTable ss lams) (rulerTable mm lams) T) : (ss ++ mm).Pairwise (· ≤ ·) := by
  have hp := combine_perm h
  have e : T.sDash = ss ++ mm := by
    refine List.ext_getElem hp.length_eq fun n h1 h2 => ?_
    have hr : T.raw 0 0 n 0 = (ss ++ mm)[n] := by
      rw [combine_raw h]
      show (if n < ss.length then ss.getD n 0 else mm.getD (n - ss.length) 0) = _
      split_ifs with hn
      · rw [List.getElem_append_left hn, List.getD_eq_getElem _ _ hn]
      · rw [List.getElem_append_right (by omega)]
        have h2' : n < ss.length + mm.length := by rwa [List.length_append] at h2
        rw [List.getD_eq_getElem _ _ (by omega)]
    rw [← hr, ← List.getD_eq_getElem _ 0 h1]
    rcases hb n h1 with ⟨m, -, e1, e2⟩ | ⟨m, -, e1, e2⟩
    · rw [e1, e2]; rfl
    · rw [e1, e2]; rfl
  rw [← e]
  exact combine_sorted h

/-- **C57** fails when a near-field distance lies above a midfield distance. -/
theorem C57_mixed : ∃ A B T : ScalarTable, A.sDash.Pairwise (· < ·) ∧ B.sDash.Pairwise (· < ·) ∧ A.lam = B.lam ∧
    combine_scalars A B = some T ∧ ¬ Beside A B T := by
  refine ⟨rulerTable [2.01, 2.03] [1], rulerTable [2.02] [1], _, by norm_num [rulerTable], by norm_num [rulerTable],
    rfl, if_pos rfl, fun hb => ?_⟩
  have := C57_order (ss := [2.01, 2.03]) (mm := [2.02]) (lams := [1]) (if_pos rfl) hb
  norm_num at this

/-- Two near-field distances and one midfield distance. -/
example : ∃ T, combine_scalars (Nearfield.nearfield_table [2.001, 2.002] [1, 10]) ⟨[2.1], Nearfield.with_reciprocals [1, 10],
      fun k g n l => k + g + n + l⟩ = some T ∧
    Beside (Nearfield.nearfield_table [2.001, 2.002] [1, 10]) ⟨[2.1], Nearfield.with_reciprocals [1, 10],
      fun k g n l => k + g + n + l⟩ T :=
  ⟨_, if_pos rfl, (C57_aligned_partial (A := Nearfield.nearfield_table [2.001, 2.002] [1, 10])
    (B := ⟨[2.1], Nearfield.with_reciprocals [1, 10], fun k g n l => k + g + n + l⟩) (if_pos rfl)
    (by norm_num [Nearfield.nearfield_table])).1⟩

/-! ## C18: numbering with the tables made by the scripts -/

theorem Spec.Reciprocal.flip {u v : Scalars} {a b : ℝ} (h : Reciprocal u v a b) : Reciprocal v u b a :=
  ⟨h.XA.symm, h.YA.symm, h.XC.symm, h.YC.symm, h.XM.symm, h.YM.symm, h.ZM.symm⟩

theorem Spec.Reciprocal.scale {u v : Scalars} {a b : ℝ} (ha : 0 < a) (h : Reciprocal u v 1 (b / a)) :
    Reciprocal u v a b := by
  have lin : ∀ w z : ℝ, 1 * w = b / a * z → a * w = b * z := by
    intro w z h2
    rw [one_mul] at h2; rw [h2]; field_simp
  have cub : ∀ w z : ℝ, 1 ^ 3 * w = (b / a) ^ 3 * z → a ^ 3 * w = b ^ 3 * z := by
    intro w z h2
    rw [one_pow, one_mul] at h2; rw [h2]; field_simp
  exact ⟨lin _ _ h.XA, lin _ _ h.YA, cub _ _ h.XC, cub _ _ h.YC, cub _ _ h.XM, cub _ _ h.YM, cub _ _ h.ZM⟩

theorem reciprocal_of_nodes {T : ScalarTable} (hne : T.sDash ≠ []) {l l' : ℕ} {a b : ℝ}
    (node : ∀ n < T.sDash.length, Reciprocal (cellScalars T 1 n l) (cellScalars T 1 n l') a b) (s : ℝ) :
    Reciprocal (scalarsAt T 1 s l) (scalarsAt T 1 s l') a b := by
  have up : ∀ κ (c c' : ℝ), (∀ n < T.sDash.length, c * T.raw κ 1 n l = c' * T.raw κ 1 n l') →
      c * XYZ T κ 1 s l = c' * XYZ T κ 1 s l' := by
    intro κ c c' hκ
    unfold XYZ
    rw [← npInterp_smul, ← npInterp_smul]
    exact npInterp_congr (xs := T.sDash) hne hκ s
  exact ⟨up 0 _ _ fun n hn => (node n hn).XA, up 1 _ _ fun n hn => (node n hn).YA,
    up 3 _ _ fun n hn => (node n hn).XC, up 4 _ _ fun n hn => (node n hn).YC,
    up 8 _ _ fun n hn => (node n hn).XM, up 9 _ _ fun n hn => (node n hn).YM,
    up 10 _ _ fun n hn => (node n hn).ZM⟩

/-- The Fortran program, asked for a ratio of the list and a distance of the list, solves a mobility problem whose
scalars obey the reciprocal theorem. -/
def Spec.SolvesAll (run : ℝ → ℝ → FCase → ℕ → ℝ) (ss lams : List ℝ) : Prop :=
  ∀ lam ∈ lams, ∀ s ∈ ss, ∃ z, SolvesMobility z (run lam s) ∧ Balanced z

theorem midfield_nodes {run : ℝ → ℝ → FCase → ℕ → ℝ} {ss lams : List ℝ} {M : ScalarTable}
    (h : midfield_table run ss lams = some M) (hrun : SolvesAll run ss lams) (hpos : ∀ lam ∈ lams, 0 < lam ∧ lam ≤ 1)
    {n l l' : ℕ} (hn : n < ss.length) (hl : l < M.lam.length) {a b : ℝ} (ha : 0 < a) (hb : 0 < b)
    (e : M.lam.getD l 0 = b / a) (e' : M.lam.getD l' 0 = a / b) :
    Reciprocal (cellScalars M 1 n l) (cellScalars M 1 n l') a b := by
  unfold midfield_table at h
  rw [Option.bind_eq_bind, Option.bind_eq_some_iff] at h
  obtain ⟨tab, ht, h⟩ := h
  have h := (Option.some.inj h).symm
  have hlam : M.lam = Nearfield.with_reciprocals lams := by rw [h]
  have cell : ∀ q m, M.lam.getD m 0 = q → cellScalars M 1 n m
      = ofColumn fun k => midfieldCell lams (fun i => (tab.getD i []).getD n fun _ => 0) q k 1 := by
    intro q m hq
    rw [hlam] at hq
    rw [h]
    simp only [cellScalars, ofColumn, hq]
  rw [cell _ l e, cell _ l' e']
  have key : ∀ a b : ℝ, 0 < a → 0 < b → b / a ∈ lams → Reciprocal
      (ofColumn fun k => midfieldCell lams (fun i => (tab.getD i []).getD n fun _ => 0) (b / a) k 1)
      (ofColumn fun k => midfieldCell lams (fun i => (tab.getD i []).getD n fun _ => 0) (a / b) k 1) a b := by
    intro a b ha hb hm
    obtain ⟨p0, p1⟩ := hpos _ hm
    rcases eq_or_lt_of_le p1 with p1 | p1
    · have : a = b := by rw [div_eq_one_iff_eq ha.ne'] at p1; exact p1.symm
      subst this
      exact ⟨rfl, rfl, rfl, rfl, rfl, rfl, rfl⟩
    · have hq : a / b = 1 / (b / a) := (one_div_div b a).symm
      have hno : a / b ∉ lams := fun hm' => by
        have := (hpos _ hm').2
        rw [div_lt_one ha] at p1
        rw [div_le_one hb] at this
        linarith
      have hi : lams.idxOf (b / a) < lams.length := List.idxOf_lt_length_iff.mpr hm
      have h1 := mapM_getD _ 0 [] _ _ ht _ hi
      have h2 := mapM_getD _ 0 (fun _ => 0) _ _ h1 n hn
      rw [List.getD_eq_getElem _ _ hi, List.getElem_idxOf hi] at h2
      obtain ⟨z, hz, hbal⟩ := hrun _ hm (ss.getD n 0) (by rw [List.getD_eq_getElem _ _ hn]; exact List.getElem_mem hn)
      have r := C45_reciprocal hz hbal h2 p0
      refine Reciprocal.scale ha ?_
      have e1 : ∀ k, midfieldCell lams (fun i => (tab.getD i []).getD n fun _ => 0) (b / a) k 1
          = generalColumn ((tab.getD (lams.idxOf (b / a)) []).getD n fun _ => 0) k 1 := fun k => if_pos hm
      have e2 : ∀ k, midfieldCell lams (fun i => (tab.getD i []).getD n fun _ => 0) (a / b) k 1
          = reciprocalColumn (1 / (b / a)) ((tab.getD (lams.idxOf (b / a)) []).getD n fun _ => 0) k 1 := by
        intro k
        unfold midfieldCell
        rw [if_neg hno, hq, one_div_one_div]
      simp only [e1, e2]
      exact r
  have hm : b / a ∈ Nearfield.with_reciprocals lams := by
    rw [← hlam, ← e, List.getD_eq_getElem _ _ hl]; exact List.getElem_mem hl
  rw [mem_with_reciprocals, one_div_div] at hm
  rcases hm with hm | hm
  · exact key a b ha hb hm
  · exact (key b a hb ha hm).flip

/-- **C18** (grand resistance, with the tables the project makes). Take the near-field formulae at distances `ss`, a
two-sphere program that obeys the reciprocal theorem at distances `mm`, combine the two tables and subtract the far
field. Then, in every mode, renumbering spheres by a permutation `σ` and dumbbells by a permutation `τ` renumbers the
loads that the grand resistance matrix gives for renumbered motions. -/
theorem C18_grand {run : ℝ → ℝ → FCase → ℕ → ℝ} {ss mm lams : List ℝ} {M T T' : ScalarTable}
    (hM : midfield_table run mm lams = some M) (hrun : SolvesAll run mm lams)
    (hC : combine_scalars (Nearfield.nearfield_table ss lams) M = some T) (hT : subtractR2Binfinity T = some T')
    (ho : (ss ++ mm).Pairwise (· < ·)) (hs : ∀ s ∈ ss ++ mm, 1 / 10 ^ 7 < s) (hne : ss ++ mm ≠ [])
    (hpos : ∀ lam ∈ lams, 0 < lam ∧ lam ≤ 1) (hsep : Separated (Nearfield.with_reciprocals lams))
    {P : PosData} (hP : Sensible P) {c : ℝ} (hc : 0 < c)
    (hrat : ∀ x < beads P, ∀ y < beads P, radius P y / radius P x ∈ lams ∨ radius P x / radius P y ∈ lams)
    {σ τ : ℕ → ℕ} (hσ : ∀ i < P.Ns, σ i < P.Ns)
    (hτ : ∀ i < P.Nd, τ i < P.Nd) (iσ : ∀ i < P.Ns, ∀ j < P.Ns, σ i = σ j → i = j)
    (iτ : ∀ i < P.Nd, ∀ j < P.Nd, τ i = τ j → i = j) {last last' : NDMat}
    {reg dragM only bb : Bool} {mu : ℝ} {R C : NDMat}
    (hl : dragM = false → reg = false → ∀ v v', GrandRenumbered P.Ns P.Nd σ τ v v' →
      GrandRenumbered P.Ns P.Nd σ τ (mulVec (side P) last.get v) (mulVec (side P) last'.get v'))
    (h : generate_grand_resistance_matrix T' P last reg c dragM only mu bb = some (R, C)) :
    ∃ R' C', generate_grand_resistance_matrix T' (relabel P σ τ) last' reg c dragM only mu bb = some (R', C') ∧
      ∀ v v', GrandRenumbered P.Ns P.Nd σ τ v v' →
        GrandRenumbered P.Ns P.Nd σ τ (mulVec (side P) R.get v) (mulVec (side P) R'.get v') ∧
        GrandRenumbered P.Ns P.Nd σ τ (mulVec (side P) C.get v) (mulVec (side P) C'.get v') := by
  have ms : M.sDash = mm ∧ M.lam = Nearfield.with_reciprocals lams := by
    unfold midfield_table at hM
    rw [Option.bind_eq_bind, Option.bind_eq_some_iff] at hM
    obtain ⟨tab, -, hM⟩ := hM
    rw [← Option.some.inj hM]
    exact ⟨rfl, rfl⟩
  have es : T.sDash = ss ++ mm := by
    rw [combine_sDash hC (by rw [ms.1]; exact ho.imp fun h => h.le), ms.1]; rfl
  have el : T.lam = Nearfield.with_reciprocals lams := combine_lam hC
  refine C18_grand_subtracted hT (by rw [es]; exact ho) (by rw [es]; exact hs) (by rw [es]; exact hne)
    (by rw [el]; exact hsep) ?_ hP hc (fun x hx y hy => ?_) hσ hτ iσ iτ hl h
  · intro l hl l' hl' a b ha hb e e' s
    refine reciprocal_of_nodes (by rw [es]; exact hne) (fun n hn => ?_) s
    by_cases hn' : n < ss.length
    · have cell : ∀ m, cellScalars T 1 n m = cellScalars (Nearfield.nearfield_table ss lams) 1 n m := by
        intro m
        simp only [cellScalars, combine_raw hC, show n < (Nearfield.nearfield_table ss lams).sDash.length from hn',
          if_true]
      rw [cell, cell]
      rw [el] at e e'
      have key := C46_reciprocal ha hb (ss.getD n 0 - 2)
      constructor <;> simp only [cellScalars, Nearfield.nearfield_table, Nearfield.scalar_functions, e, e']
      exacts [key.XA, key.YA, key.XC, key.YC, key.XM, key.YM, key.ZM]
    · have cell : ∀ m, cellScalars T 1 n m = cellScalars M 1 (n - ss.length) m := by
        intro m
        simp only [cellScalars, combine_raw hC,
          show ¬ n < (Nearfield.nearfield_table ss lams).sDash.length from hn', if_false]
        rfl
      rw [cell, cell]
      rw [es, List.length_append] at hn
      exact midfield_nodes hM hrun hpos (by omega) (by rw [ms.2, ← el]; exact hl) ha hb
        (by rw [ms.2, ← el]; exact e) (by rw [ms.2, ← el]; exact e')
  · rw [el, mem_with_reciprocals, one_div_div]
    exact hrat x hx y hy

/-- The lubrication formulae at one distance, a two-sphere program at another, and two spheres of radius 3 and 6, listed
in either order. -/
example : ∃ run M T T' R' C', SolvesAll run [5000] [1 / 2, 1] ∧ midfield_table run [5000] [1 / 2, 1] = some M ∧
    combine_scalars (Nearfield.nearfield_table [4000] [1 / 2, 1]) M = some T ∧ subtractR2Binfinity T = some T' ∧
    generate_grand_resistance_matrix T' (relabel obliqueP (fun i => 1 - i) id) (NDMat.zeros 0 0) true 3000 false false
      7 true = some (R', C') := by
  obtain ⟨run, hrun⟩ := solver_exists demoZ
  obtain ⟨Z, hZ⟩ := demoZ_converts
  have ht : XYZ_column run = some (nondimensionalise_scalars Z.toList resistance_scales) := by
    unfold XYZ_column
    rw [C45_decode hrun, hZ]
    rfl
  have hall : SolvesAll (fun _ _ => run) [5000] [1 / 2, 1] := fun _ _ _ _ => ⟨demoZ, hrun, demoZ_balanced⟩
  obtain ⟨tab, htab⟩ := mapM_isSome (fun lam => [(5000 : ℝ)].mapM fun s => XYZ_column ((fun _ _ => run) lam s))
    [(1 / 2 : ℝ), 1] fun _ _ => mapM_isSome _ _ fun _ _ => ⟨_, ht⟩
  obtain ⟨M, hM, hMs, hMl⟩ : ∃ M, midfield_table (fun _ _ => run) [5000] [1 / 2, 1] = some M ∧ M.sDash = [5000] ∧
      M.lam = Nearfield.with_reciprocals [1 / 2, 1] := by
    unfold midfield_table
    rw [htab]
    exact ⟨_, rfl, rfl, rfl⟩
  obtain ⟨T, hC⟩ : ∃ T, combine_scalars (Nearfield.nearfield_table [4000] [1 / 2, 1]) M = some T :=
    ⟨_, if_pos (by rw [hMl]; rfl)⟩
  have hs : T.sDash = [4000, 5000] := by
    rw [combine_sDash hC (by rw [hMs]; norm_num [Nearfield.nearfield_table]), hMs]; rfl
  obtain ⟨T', hT, R, C, h⟩ := oblique_case hs (combine_lam hC)
  obtain ⟨R', C', h', -⟩ := C18_grand (last' := NDMat.zeros 0 0) hM hall hC hT (by norm_num)
    (by intro s h
        simp only [List.cons_append, List.nil_append, List.mem_cons, List.not_mem_nil, or_false] at h
        rcases h with rfl | rfl <;> norm_num)
    (by simp)
    (by intro lam h
        simp only [List.mem_cons, List.not_mem_nil, or_false] at h
        rcases h with rfl | rfl <;> norm_num)
    three_separated oblique_sensible (by norm_num)
    (by intro x hx y hy
        have hx' : x < 2 := hx
        have hy' : y < 2 := hy
        interval_cases x <;> interval_cases y <;> simp only [oblique_radius0, oblique_radius1] <;> norm_num)
    (σ := fun i => 1 - i) (τ := id) (by simp only [obliqueP]; intros; omega) (by simp [obliqueP])
    (by simp only [obliqueP]; intros; omega) (by simp) (by simp) h
  exact ⟨_, M, T, T', R', C', hall, hM, hC, hT, h'⟩

/-! ## C58: the drag-only far field -/

/-- The scalars of a sphere that has no neighbour. -/
def Spec.aloneScalars : Scalars where
  XA := 1
  YA := 1
  YB := 0
  XC := 1
  YC := 1
  XG := 0
  YG := 0
  YH := 0
  XM := 1
  YM := 1
  ZM := 1

/-- Load `c1` on an isolated sphere per unit motion `c2`: Stokes' laws. -/
noncomputable def Spec.selfRes (mu a : ℝ) (c1 c2 : Comp) : ℝ :=
  match c1, c2 with
  | .f i, .f j => if i = j then 6 * Real.pi * mu * a else 0
  | .t i, .t j => if i = j then 8 * Real.pi * mu * a ^ 3 else 0
  | .s p, .s q => if p = q then 20 / 3 * Real.pi * mu * a ^ 3 else 0
  | _, _ => 0

/-- The scalars of a sphere without neighbour describe a sphere that obeys Stokes' laws, whatever the axis. -/
theorem alone_self (a : ℝ) (d : Fin 3 → ℝ) (c1 c2 : Comp) :
    nearSelf aloneScalars a d c1 c2 = selfRes 1 a c1 c2 := by
  have f : ∀ i j, nearForce aloneScalars a d (Spec.unit j) i = 6 * Real.pi * a * dlt i j := by
    intro i j
    simp only [nearForce, aloneScalars, Spec.unit]
    ring
  have t : ∀ O i, nearTorque aloneScalars a d 0 O i = 8 * Real.pi * a ^ 3 * O i := by
    intro O i
    simp only [nearTorque, aloneScalars]
    ring
  have tf : ∀ U i, nearTorque aloneScalars a d U 0 i = 0 := by
    intro U i
    simp [nearTorque, aloneScalars, dotp]
  have sf : ∀ U O, nearStress aloneScalars a d U O 0 = 0 := by
    intro U O
    funext i j
    simp [nearStress, aloneScalars, dotp, app]
  have se : ∀ E, nearStress aloneScalars a d 0 0 E = fun i j => 20 / 3 * Real.pi * a ^ 3 * E i j := by
    intro E
    funext i j
    simp only [nearStress, aloneScalars]
    simp only [dotp, cross, Pi.zero_apply]
    ring
  have z5 : ∀ p, five 0 p = 0 := by intro p; fin_cases p <;> simp [five]
  cases c1 <;> cases c2 <;> simp [nearSelf, order, nearDirect, f, t, tf, sf, se, z5, selfRes, dlt, Spec.unit]
  · rename_i p q
    rw [five_mul, five_basis5]
    by_cases h : p = q
    · subst h; simp
    · rw [if_neg (fun e => h e.symm), if_neg h, mul_zero]

/-- No scalars. -/
def noScalars : Scalars := ⟨0, 0, 0, 0, 0, 0, 0, 0, 0, 0, 0⟩

theorem none_direct (a : ℝ) (d : Fin 3 → ℝ) (c1 c2 : Comp) : nearDirect noScalars a d c1 c2 = 0 := by
  have s : ∀ U O E, nearStress noScalars a d U O E = 0 := by
    intro U O E
    funext i j
    simp [nearStress, noScalars]
  have z5 : ∀ p, five 0 p = 0 := by intro p; fin_cases p <;> simp [five]
  cases c1 <;> cases c2 <;> simp [nearDirect, nearForce, nearTorque, s, z5]
  all_goals simp [noScalars]

theorem npInterp_const (x : ℝ) (xs : List ℝ) (c : ℝ) (f : ℕ → ℝ) :
    npInterp x xs (fun n => f n - c) = npInterp x xs f - c := by
  unfold npInterp
  dsimp only
  split_ifs <;> ring

theorem drag_XYZ (T : ScalarTable) (κ g : ℕ) (s : ℝ) {l : ℕ} :
    XYZ (subtractR2Binfinitydrag T) κ g s l
      = XYZ T κ g s l - extractScalar (dragRinfinity 1 (T.lam.getD l 0)) 1 κ g :=
  npInterp_const s T.sDash _ _

/-- **C58** (scripts). The drag-only script takes off exactly the scalars of a sphere that has no neighbour, at every
distance, on and between the tabulated ones, and for every size ratio. -/
theorem C58_scripts (T : ScalarTable) (lam s : ℝ) :
    tableScal T 0 lam s = plus (tableScal (subtractR2Binfinitydrag T) 0 lam s) aloneScalars ∧
      tableScal T 1 lam s = tableScal (subtractR2Binfinitydrag T) 1 lam s := by
  have hpi := Real.pi_pos
  have hl : ∀ q, lamIndex (subtractR2Binfinitydrag T) q = lamIndex T q := fun _ => rfl
  have p0 := Real.pi_ne_zero
  constructor
  · unfold tableScal
    rw [hl]
    simp only [scalarsAt, plus, aloneScalars, drag_XYZ, extractScalar, dragRinfinity, NDMat.smul, npDiag]
    norm_num
    refine ⟨?_, ?_, ?_, ?_⟩ <;> field_simp <;> norm_num
  · unfold tableScal
    rw [hl]
    simp only [scalarsAt, drag_XYZ, extractScalar, dragRinfinity, NDMat.smul, npDiag]
    norm_num

/-- Number of neighbours of a particle. -/
noncomputable def Spec.neighbourCount (n : ℕ) (link : ℕ → ℕ → Option ((Fin 3 → ℝ) × ℝ)) (x : ℕ) : ℕ :=
  open Classical in ((Finset.range n).filter fun z => z ≠ x ∧ link x z ≠ none).card

theorem near_drag (T : ScalarTable) (Ns n : ℕ) (bb : Bool) (rad : ℕ → ℝ) (link : ℕ → ℕ → Option ((Fin 3 → ℝ) × ℝ))
    (x : ℕ) (c1 : Comp) (y : ℕ) (c2 : Comp) :
    systemNear Ns n bb rad (tableScal T) link x c1 y c2
      = systemNear Ns n bb rad (tableScal (subtractR2Binfinitydrag T)) link x c1 y c2
        + if x = y then neighbourCount n link x * selfRes 1 (rad x) c1 c2 else 0 := by
  classical
  unfold systemNear
  by_cases hxy : x = y
  · rw [if_pos hxy, if_pos hxy, if_pos hxy]
    have hc : (neighbourCount n link x : ℝ) = ∑ z ∈ Finset.range n, if z ≠ x ∧ link x z ≠ none then (1 : ℝ) else 0 := by
      unfold neighbourCount
      rw [Finset.card_filter]
      push_cast
      exact Finset.sum_congr rfl fun z _ => by split_ifs <;> rfl
    rw [hc, Finset.sum_mul, ← Finset.sum_add_distrib]
    refine Finset.sum_congr rfl fun z _ => ?_
    by_cases hz : z = x
    · rw [if_pos hz, if_pos hz, if_neg (by simp [hz]), zero_mul, add_zero]
    · rw [if_neg hz, if_neg hz]
      rcases hk : link x z with _ | ⟨d, s⟩
      · simp
      · rw [if_pos ⟨hz, by simp⟩, one_mul]
        dsimp only
        rw [(C58_scripts T _ s).1, nearSelf_plus, alone_self]
  · rw [if_neg hxy, if_neg hxy, if_neg hxy, add_zero]
    split_ifs
    · rfl
    · rcases link x y with _ | ⟨d, s⟩
      · rfl
      · dsimp only
        rw [(C58_scripts T _ s).2, (C58_scripts T _ s).2]

/-- The drag diagonal is Stokes' law without the factor `6 π`. -/
theorem drag_row {P : PosData} {x : ℕ} (hx : x < P.Ns) (c : Comp) :
    6 * Real.pi * drag P (row P.Ns x c) = stokes 1 (P.sphereSize x) c := by
  cases c with
  | f i =>
    have hi := i.isLt
    rw [show row P.Ns x (.f i) = 3 * x + i from if_pos hx]
    unfold drag stokes
    rw [if_pos (show 3 * x + (i : ℕ) < 3 * P.Ns by omega), show (3 * x + (i : ℕ)) / 3 = x by omega]
    ring
  | t i =>
    have hi := i.isLt
    rw [show row P.Ns x (.t i) = 3 * P.Ns + 3 * x + i from rfl]
    unfold drag stokes
    rw [if_neg (show ¬ 3 * P.Ns + 3 * x + (i : ℕ) < 3 * P.Ns by omega),
      if_pos (show 3 * P.Ns + 3 * x + (i : ℕ) < 6 * P.Ns by omega),
      show (3 * P.Ns + 3 * x + (i : ℕ) - 3 * P.Ns) / 3 = x by omega]
    ring
  | s p =>
    have hi := p.isLt
    rw [show row P.Ns x (.s p) = 6 * P.Ns + 5 * x + p from rfl]
    unfold drag stokes
    rw [if_neg (show ¬ 6 * P.Ns + 5 * x + (p : ℕ) < 3 * P.Ns by omega),
      if_neg (show ¬ 6 * P.Ns + 5 * x + (p : ℕ) < 6 * P.Ns by omega),
      if_pos (show 6 * P.Ns + 5 * x + (p : ℕ) < 11 * P.Ns by omega),
      show (6 * P.Ns + 5 * x + (p : ℕ) - 6 * P.Ns) / 5 = x by omega]
    ring

/-- **C58** (partial: the full claim is that in drag-only mode every sphere without neighbours obeys Stokes' laws, and
every entry for two spheres is that of the original table; the code's drag matrix lacks the factor `6 π`, see
`C58_no_stokes`). With the drag-only table, the grand resistance matrix of any number of spheres in drag-only mode is
the near field of the original table, except that the drag of each sphere on itself is counted `1 / (6 π)` times
instead of once, minus once for each neighbour. -/
theorem C58_grand_partial {T : ScalarTable} {P : PosData} (hP : Sensible P) (hNd : P.Nd = 0) {k : ℝ} (hk : 0 < k)
    (hT : Tabulated T.lam P k) {mu : ℝ} (bb reg : Bool) (last : NDMat) :
    ∃ R C, generate_grand_resistance_matrix (subtractR2Binfinitydrag T) P last reg k true false mu bb = some (R, C) ∧
      ∀ x < P.Ns, ∀ y < P.Ns, ∀ c1 c2, R.get (row P.Ns x c1) (row P.Ns y c2)
        = mu * systemNear P.Ns P.Ns bb (radius P) (tableScal T) (openLink k (centre P) (radius P)) x c1 y c2
          + if x = y then (1 / (6 * Real.pi) - neighbourCount P.Ns (openLink k (centre P) (radius P)) x)
              * selfRes mu (radius P x) c1 c2 else 0 := by
  have hb : beads P = P.Ns := by unfold beads; rw [hNd]; omega
  obtain ⟨M, hM, -, eM⟩ := C20_entry (T := subtractR2Binfinitydrag T) hP hk hT bb
  have hN : generate_R2Bexact (subtractR2Binfinitydrag T) P k mu bb = some (NDMat.smul mu M) := by
    unfold generate_R2Bexact R2BexactOfPairs
    have hM' : generate_R2Bexact_loop (subtractR2Binfinitydrag T) (NDMat.zeros (11 * P.Ns + 6 * P.Nd) (11 * P.Ns + 6 * P.Nd))
        P.Ns P.Nd P.beadSize bb (close_particles (P.Ns + 2 * P.Nd) P.beadPos P.beadSize k) = some M := hM
    dsimp only
    rw [hM', Option.bind_eq_bind, Option.bind_some, if_neg (by rw [hNd]; simp)]
  have hG : generate_grand_resistance_matrix (subtractR2Binfinitydrag T) P last reg k true false mu bb
      = some ((NDMat.smul mu M).add (NDMat.smul mu (npDiag (dragDiagonal P))), NDMat.smul mu (npDiag (dragDiagonal P))) := by
    unfold generate_grand_resistance_matrix
    simp only [Bool.true_eq_false, if_false, if_true, Option.bind_eq_bind]
    rw [Option.bind_some, hN, Option.bind_some]
  refine ⟨_, _, hG, fun x hx y hy c1 c2 => ?_⟩
  have hr : ∀ x < P.Ns, ∀ c, HasRow P.Ns P.Nd x c := by
    intro x hx c
    cases c
    · simp only [HasRow]; omega
    · exact hx
    · exact hx
  have e := eM x c1 y c2 (hr x hx c1) (hr y hy c2)
  rw [hb] at e
  have hR : ((NDMat.smul mu M).add (NDMat.smul mu (npDiag (dragDiagonal P)))).get (row P.Ns x c1) (row P.Ns y c2)
      = mu * M.get (row P.Ns x c1) (row P.Ns y c2)
        + mu * if row P.Ns x c1 = row P.Ns y c2 then (dragDiagonal P).getD (row P.Ns x c1) 0 else 0 := rfl
  rw [hR, e, near_drag T]
  have lt : ∀ c, row P.Ns x c < side P := fun c => row_lt (hr x hx c)
  have rad : radius P x = P.sphereSize x := by simp [radius, hx]
  have hpi := Real.pi_ne_zero
  have hd : (if row P.Ns x c1 = row P.Ns y c2 then (dragDiagonal P).getD (row P.Ns x c1) 0 else 0)
      = if x = y then 1 / (6 * Real.pi) * selfRes 1 (radius P x) c1 c2 else 0 := by
    by_cases hxy : x = y
    · subst hxy
      rw [if_pos rfl]
      by_cases hc : c1 = c2
      · subst hc
        rw [if_pos rfl, dragDiagonal_getD P (lt c1), rad]
        have e1 : selfRes 1 (P.sphereSize x) c1 c1 = stokes 1 (P.sphereSize x) c1 := by
          cases c1 <;> simp [selfRes, stokes]
        rw [e1, ← drag_row hx c1]
        field_simp
      · rw [if_neg fun h => hc (row_inj (hr x hx c1) (hr x hx c2) h).2]
        have : selfRes 1 (radius P x) c1 c2 = 0 := by
          cases c1 <;> cases c2 <;> simp only [selfRes]
          all_goals exact if_neg fun h => hc (by rw [h])
        rw [this, mul_zero]
    · rw [if_neg hxy, if_neg fun h => hxy (row_inj (hr x hx c1) (hr y hy c2) h).1]
  rw [hd]
  have hmu : selfRes mu (radius P x) c1 c2 = mu * selfRes 1 (radius P x) c1 c2 := by
    cases c1 <;> cases c2 <;> simp only [selfRes, mul_zero] <;> split_ifs <;> ring
  rw [hmu]
  split_ifs <;> ring

/-- **C58** fails: in drag-only mode a sphere of positive radius in a fluid of positive viscosity, without neighbours,
feels less than Stokes' drag, in every component. -/
theorem C58_no_stokes {T : ScalarTable} {P : PosData} {last R C : NDMat} {reg bb : Bool} {k mu : ℝ} (hmu : 0 < mu)
    {x : ℕ} (hx : x < P.Ns) (ha : 0 < P.sphereSize x)
    (h : generate_grand_resistance_matrix T P last reg k true true mu bb = some (R, C)) (c : Comp) :
    6 * Real.pi * R.get (row P.Ns x c) (row P.Ns x c) = stokes mu (P.sphereSize x) c ∧
      R.get (row P.Ns x c) (row P.Ns x c) < stokes mu (P.sphereSize x) c := by
  obtain rfl : R = C := (grand_some h).2.2 rfl
  have hr : HasRow P.Ns P.Nd x c := by
    cases c
    · simp only [HasRow]; omega
    · exact hx
    · exact hx
  have e := (C25_drag h).2.2.2.1 _ (row_lt hr)
  have hpi := Real.pi_pos
  have h3 := Real.pi_gt_three
  have key : 6 * Real.pi * R.get (row P.Ns x c) (row P.Ns x c) = stokes mu (P.sphereSize x) c := by
    have := drag_row hx c
    have e1 : stokes mu (P.sphereSize x) c = mu * stokes 1 (P.sphereSize x) c := by
      cases c <;> simp only [stokes] <;> ring
    rw [e, e1, ← this]
    ring
  refine ⟨key, ?_⟩
  have pos : 0 < stokes mu (P.sphereSize x) c := by cases c <;> simp only [stokes] <;> positivity
  rw [← key] at pos ⊢
  have : 0 < R.get (row P.Ns x c) (row P.Ns x c) := by
    by_contra hn
    have := mul_nonpos_of_nonneg_of_nonpos (by positivity : 0 ≤ 6 * Real.pi) (not_lt.mp hn)
    linarith
  nlinarith

theorem oblique_tabulated (k : ℝ) : Tabulated farT.lam obliqueP k := by
  intro x hx y hy _
  have hx' : x < 2 := hx
  have hy' : y < 2 := hy
  interval_cases x <;> interval_cases y <;> simp only [oblique_radius0, oblique_radius1]
  · exact ⟨1, by simp [farT], by norm_num⟩
  · exact ⟨2, by simp [farT], by norm_num⟩
  · exact ⟨1 / 2, by simp [farT], by norm_num⟩
  · exact ⟨1, by simp [farT], by norm_num⟩

/-- Two spheres of radius 3 and 6 that are neighbours. -/
example := C58_grand_partial (T := farT) oblique_sensible rfl (k := 3000) (by norm_num) (oblique_tabulated _) (mu := 7)
  true true (NDMat.zeros 0 0)

/-- A sphere of radius 3. -/
example : ∃ R C, generate_grand_resistance_matrix farT obliqueP (NDMat.zeros 0 0) true 2 true true 7 true = some (R, C) ∧
    R.get (row 2 0 (.f 0)) (row 2 0 (.f 0)) < 6 * Real.pi * 7 * 3 := by
  refine ⟨_, _, rfl, ?_⟩
  have := (C58_no_stokes (T := farT) (P := obliqueP) (last := NDMat.zeros 0 0) (reg := true) (bb := true) (k := 2)
    (mu := 7) (by norm_num) (x := 0) (by norm_num [obliqueP]) (by norm_num [obliqueP]) rfl (.f 0)).2
  simpa [stokes, obliqueP] using this

end SD
