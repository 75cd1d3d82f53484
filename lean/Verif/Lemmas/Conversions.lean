import Verif.Lemmas.CodePivot

/-!
# Each conversion step of `simulation_tools.py` is a pivot
-/

set_option autoImplicit false

namespace SD

open Finset Spec

/-- Symmetric between entries on the same side of `P`, antisymmetric across. -/
def PSymm (P : ℕ → Prop) (M : ℕ → ℕ → ℝ) (n : ℕ) : Prop :=
  ∀ i < n, ∀ j < n, ((P i ↔ P j) → M i j = M j i) ∧ (¬ (P i ↔ P j) → M i j = -M j i)

theorem psymm_of_symm {M : ℕ → ℕ → ℝ} {n : ℕ} (h : Symm M n) : PSymm (fun _ => False) M n := by
  intro i hi j hj; exact ⟨fun _ => h i hi j hj, fun h => absurd Iff.rfl h⟩

open Classical in
theorem Pivots.psymm {P Q : ℕ → Prop} {M X : ℕ → ℕ → ℝ} {n : ℕ} (h : Pivots Q M X n)
    (hM : PSymm P M n) (hd : ∀ i, P i → ¬ Q i) : PSymm (fun i => P i ∨ Q i) X n := by
  have hs : SSymm (fun i => if P i then -1 else 1) M n := by
    intro i hi j hj
    have h1 := (hM i hi j hj).1
    have h2 := (hM i hi j hj).2
    by_cases hPi : P i <;> by_cases hPj : P j <;> simp_all
  have := h.ssymm hs
  intro i hi j hj
  have hij := this i hi j hj
  have hdi := hd i
  have hdj := hd j
  by_cases hPi : P i <;> by_cases hPj : P j <;> by_cases hQi : Q i <;> by_cases hQj : Q j <;>
    simp_all <;> linarith

/-! ## FTS to FTE -/

/-- The stress entries of the grand vector. -/
def stressIdx (Ns : ℕ) (i : ℕ) : Prop := 6 * Ns ≤ i ∧ i < 11 * Ns

theorem fte_pivotEntries {Ns Nd : ℕ} {M X : NDMat} (hS : Symm M.get (11 * Ns + 6 * Nd))
    (h : fts_to_fte_matrix Ns Nd M = some X) :
    Pivots (stressIdx Ns) M.get X.get (11 * Ns + 6 * Nd) ∧ X.rows = M.rows ∧ X.cols = M.cols := by
  unfold fts_to_fte_matrix at h
  simp only at h
  obtain ⟨B, hB, h⟩ := Option.bind_eq_some_iff.mp h
  by_cases hNs : 0 < Ns
  swap
  · rw [if_neg hNs] at h; cases h
  rw [if_pos hNs] at h
  obtain rfl := Option.some.inj h
  refine ⟨?_, rfl, rfl⟩
  by_cases hNd : 0 < Nd
  · simp only [hNd, hNs, and_self, if_true]
    refine (code_pivot M B _ _ _ 5 2 (11 * Ns + 6 * Nd) (6 * Ns) (11 * Ns)
      ?_ rfl rfl (by omega) rfl rfl hB ?_ ?_ ?_).pivots
    · intro a ha; interval_cases a <;> simp <;> omega
    · intro a ha; interval_cases a <;> rfl
    · intro a ha p hp q hq
      interval_cases a <;> simp [blk, NDMat.slice, NDMat.transpose] at hp ⊢ <;>
        exact hS _ (by omega) _ (by omega)
    · intro a ha p hp q hq
      interval_cases a <;> simp [blk, NDMat.slice, NDMat.transpose] at hq ⊢ <;>
        exact hS _ (by omega) _ (by omega)
  · obtain rfl : Nd = 0 := by omega
    simp only [hNs, lt_irrefl, and_false, if_false]
    refine (code_pivot M B _ _ _ 3 2 (11 * Ns + 6 * 0) (6 * Ns) (11 * Ns)
      ?_ rfl rfl (by omega) rfl rfl hB ?_ ?_ ?_).pivots
    · intro a ha; interval_cases a <;> simp <;> omega
    · intro a ha; interval_cases a <;> rfl
    · intro a ha p hp q hq
      interval_cases a <;> simp [blk, NDMat.slice]
    · intro a ha p hp q hq
      interval_cases a <;> simp [blk, NDMat.slice, NDMat.transpose] at hq ⊢ <;>
        exact hS _ (by omega) _ (by omega)

theorem fte_exists {Ns Nd : ℕ} {M : NDMat} (hNs : 0 < Ns) (hP : PosDef M.get (11 * Ns + 6 * Nd)) :
    ∃ X, fts_to_fte_matrix Ns Nd M = some X := by
  obtain ⟨B, hB⟩ := inv_of_posDef M (11 * Ns + 6 * Nd) (6 * Ns) (11 * Ns) (by omega) hP
  unfold fts_to_fte_matrix
  simp only [hB, Option.bind_some, if_pos hNs]
  exact ⟨_, rfl⟩

/-! ## FTE to UFTE -/

/-- The velocity entries of the first `k` spheres. -/
def fixedSphereIdx (k : ℕ) (i : ℕ) : Prop := 0 ≤ i ∧ i < 3 * k

theorem ufte_pivotEntries {k Ns Nd : ℕ} {M X : NDMat} (hk : k ≤ Ns)
    (hS : PSymm (stressIdx Ns) M.get (11 * Ns + 6 * Nd))
    (h : fte_to_ufte_matrix k Ns Nd M = some X) :
    Pivots (fixedSphereIdx k) M.get X.get (11 * Ns + 6 * Nd) ∧
      X.rows = M.rows ∧ X.cols = M.cols := by
  unfold fte_to_ufte_matrix at h
  simp only at h
  obtain ⟨B, hB, h⟩ := Option.bind_eq_some_iff.mp h
  by_cases hNs : 0 < Ns
  swap
  · rw [if_neg hNs] at h; cases h
  rw [if_pos hNs] at h
  obtain rfl := Option.some.inj h
  refine ⟨?_, rfl, rfl⟩
  by_cases hNd : 0 < Nd
  · simp only [hNd, hNs, and_self, if_true]
    refine (code_pivot M B _ _ _ (5 + 1) 0 (11 * Ns + 6 * Nd) 0 (3 * k)
      ?_ rfl rfl (by omega) rfl rfl hB ?_ ?_ ?_).pivots
    · intro a ha; interval_cases a <;> simp <;> omega
    · intro a ha; interval_cases a <;> rfl
    · intro a ha p hp q hq
      interval_cases a <;> simp [blk, NDMat.slice, NDMat.transpose, NDMat.neg] at hp ⊢
      · exact (hS _ (by omega) _ (by omega)).1 (by unfold stressIdx; omega)
      · rw [(hS (6 * Ns + p) (by omega) q (by omega)).2 (by unfold stressIdx; omega)]
      · exact (hS _ (by omega) _ (by omega)).1 (by unfold stressIdx; omega)
      · exact (hS _ (by omega) _ (by omega)).1 (by unfold stressIdx; omega)
    · intro a ha p hp q hq
      interval_cases a <;> simp [blk, NDMat.slice]
  · obtain rfl : Nd = 0 := by omega
    simp only [hNs, lt_irrefl, and_false, if_false]
    refine (code_pivot M B _ _ _ (3 + 1) 0 (11 * Ns + 6 * 0) 0 (3 * k)
      ?_ rfl rfl (by omega) rfl rfl hB ?_ ?_ ?_).pivots
    · intro a ha; interval_cases a <;> simp <;> omega
    · intro a ha; interval_cases a <;> rfl
    · intro a ha p hp q hq
      interval_cases a <;> simp [blk, NDMat.slice, NDMat.transpose, NDMat.neg] at hp ⊢
      · exact (hS _ (by omega) _ (by omega)).1 (by unfold stressIdx; omega)
      · rw [(hS (6 * Ns + p) (by omega) q (by omega)).2 (by unfold stressIdx; omega)]
    · intro a ha p hp q hq
      interval_cases a <;> simp [blk, NDMat.slice]

theorem ufte_exists {k Ns Nd : ℕ} {M : NDMat} (hNs : 0 < Ns) (hk : k ≤ Ns)
    (hP : PosDef M.get (11 * Ns + 6 * Nd)) : ∃ X, fte_to_ufte_matrix k Ns Nd M = some X := by
  obtain ⟨B, hB⟩ := inv_of_posDef M (11 * Ns + 6 * Nd) 0 (3 * k) (by omega) hP
  unfold fte_to_ufte_matrix
  simp only [hB, Option.bind_some, if_pos hNs]
  exact ⟨_, rfl⟩

/-! ## UFTE to UFTEU -/

/-- The velocity entries of the first `kd` dumbbells. -/
def fixedDumbIdx (kd Ns : ℕ) (i : ℕ) : Prop := 11 * Ns ≤ i ∧ i < 11 * Ns + 3 * kd

/-- The velocity-difference entries of the first `kd` dumbbells. -/
def fixedDiffIdx (kd Ns Nd : ℕ) (i : ℕ) : Prop :=
  11 * Ns + 3 * Nd ≤ i ∧ i < 11 * Ns + 3 * Nd + 3 * kd

theorem ufteu1_pivotEntries {kd k Ns Nd : ℕ} {M X : NDMat} (hk : k ≤ Ns) (hkd : kd ≤ Nd)
    (hS : PSymm (fun i => stressIdx Ns i ∨ fixedSphereIdx k i) M.get (11 * Ns + 6 * Nd))
    (h : ufte_to_ufteu_step1 kd k Ns Nd M = some X) :
    Pivots (fixedDumbIdx kd Ns) M.get X.get (11 * Ns + 6 * Nd) ∧
      X.rows = M.rows ∧ X.cols = M.cols := by
  unfold ufte_to_ufteu_step1 at h
  simp only at h
  obtain ⟨B, hB, h⟩ := Option.bind_eq_some_iff.mp h
  obtain rfl := Option.some.inj h
  refine ⟨?_, rfl, rfl⟩
  refine (code_pivot M B _ _ _ (7 + 1) 4 (11 * Ns + 6 * Nd) (11 * Ns) (11 * Ns + 3 * kd)
    ?_ rfl rfl (by omega) rfl rfl hB ?_ ?_ ?_).pivots
  · intro a ha; interval_cases a <;> simp <;> omega
  · intro a ha; interval_cases a <;> rfl
  · intro a ha p hp q hq
    interval_cases a <;> simp [blk, NDMat.slice, NDMat.transpose, NDMat.neg] at hp ⊢
    · rw [(hS p (by omega) (11 * Ns + q) (by omega)).2 (by unfold stressIdx fixedSphereIdx; omega)]
    · exact (hS _ (by omega) _ (by omega)).1 (by unfold stressIdx fixedSphereIdx; omega)
    · exact (hS _ (by omega) _ (by omega)).1 (by unfold stressIdx fixedSphereIdx; omega)
    · rw [(hS (6 * Ns + p) (by omega) (11 * Ns + q) (by omega)).2
        (by unfold stressIdx fixedSphereIdx; omega)]
    · exact (hS _ (by omega) _ (by omega)).1 (by unfold stressIdx fixedSphereIdx; omega)
    · exact (hS _ (by omega) _ (by omega)).1 (by unfold stressIdx fixedSphereIdx; omega)
    · exact (hS _ (by omega) _ (by omega)).1 (by unfold stressIdx fixedSphereIdx; omega)
  · intro a ha p hp q hq
    interval_cases a <;> simp [blk, NDMat.slice]

theorem ufteu2_pivotEntries {kd k Ns Nd : ℕ} {M X : NDMat} (hk : k ≤ Ns) (hkd : kd ≤ Nd)
    (hS : PSymm (fun i => (stressIdx Ns i ∨ fixedSphereIdx k i) ∨ fixedDumbIdx kd Ns i) M.get
      (11 * Ns + 6 * Nd))
    (h : ufte_to_ufteu_step2 kd k Ns Nd M = some X) :
    Pivots (fixedDiffIdx kd Ns Nd) M.get X.get (11 * Ns + 6 * Nd) ∧
      X.rows = M.rows ∧ X.cols = M.cols := by
  unfold ufte_to_ufteu_step2 at h
  simp only at h
  obtain ⟨B, hB, h⟩ := Option.bind_eq_some_iff.mp h
  obtain rfl := Option.some.inj h
  refine ⟨?_, rfl, rfl⟩
  refine (code_pivot M B _ _ _ (7 + 1) 6 (11 * Ns + 6 * Nd) (11 * Ns + 3 * Nd)
    (11 * Ns + 3 * Nd + 3 * kd) ?_ rfl rfl (by omega) rfl rfl hB ?_ ?_ ?_).pivots
  · intro a ha; interval_cases a <;> simp <;> omega
  · intro a ha; interval_cases a <;> rfl
  · intro a ha p hp q hq
    interval_cases a <;> simp [blk, NDMat.slice, NDMat.transpose, NDMat.neg] at hp ⊢
    · rw [(hS p (by omega) (11 * Ns + 3 * Nd + q) (by omega)).2
        (by unfold stressIdx fixedSphereIdx fixedDumbIdx; omega)]
    · exact (hS _ (by omega) _ (by omega)).1
        (by unfold stressIdx fixedSphereIdx fixedDumbIdx; omega)
    · exact (hS _ (by omega) _ (by omega)).1
        (by unfold stressIdx fixedSphereIdx fixedDumbIdx; omega)
    · rw [(hS (6 * Ns + p) (by omega) (11 * Ns + 3 * Nd + q) (by omega)).2
        (by unfold stressIdx fixedSphereIdx fixedDumbIdx; omega)]
    · rw [(hS (11 * Ns + p) (by omega) (11 * Ns + 3 * Nd + q) (by omega)).2
        (by unfold stressIdx fixedSphereIdx fixedDumbIdx; omega)]
    · exact (hS _ (by omega) _ (by omega)).1
        (by unfold stressIdx fixedSphereIdx fixedDumbIdx; omega)
    · exact (hS _ (by omega) _ (by omega)).1
        (by unfold stressIdx fixedSphereIdx fixedDumbIdx; omega)
  · intro a ha p hp q hq
    interval_cases a <;> simp [blk, NDMat.slice]

theorem ufteu1_exists {kd k Ns Nd : ℕ} {M : NDMat} (hkd : kd ≤ Nd)
    (hP : PosDef M.get (11 * Ns + 6 * Nd)) : ∃ X, ufte_to_ufteu_step1 kd k Ns Nd M = some X := by
  obtain ⟨B, hB⟩ := inv_of_posDef M (11 * Ns + 6 * Nd) (11 * Ns) (11 * Ns + 3 * kd) (by omega) hP
  unfold ufte_to_ufteu_step1
  simp only [hB, Option.bind_some]
  exact ⟨_, rfl⟩

theorem ufteu2_exists {kd k Ns Nd : ℕ} {M : NDMat} (hkd : kd ≤ Nd)
    (hP : PosDef M.get (11 * Ns + 6 * Nd)) : ∃ X, ufte_to_ufteu_step2 kd k Ns Nd M = some X := by
  obtain ⟨B, hB⟩ := inv_of_posDef M (11 * Ns + 6 * Nd) (11 * Ns + 3 * Nd)
    (11 * Ns + 3 * Nd + 3 * kd) (by omega) hP
  unfold ufte_to_ufteu_step2
  simp only [hB, Option.bind_some]
  exact ⟨_, rfl⟩

/-! ## FTS to DUF -/

theorem duf1_pivotEntries {kd Nd : ℕ} {M X : NDMat} (hkd : kd ≤ Nd)
    (hS : Symm M.get (6 * Nd)) (h : fts_to_duf_step1 kd Nd M = some X) :
    Pivots (fixedDumbIdx kd 0) M.get X.get (6 * Nd) ∧ X.rows = M.rows ∧ X.cols = M.cols := by
  unfold fts_to_duf_step1 at h
  simp only at h
  obtain ⟨B, hB, h⟩ := Option.bind_eq_some_iff.mp h
  obtain rfl := Option.some.inj h
  refine ⟨?_, rfl, rfl⟩
  have : fixedDumbIdx kd 0 = fun i => 0 ≤ i ∧ i < 3 * kd := by
    funext i; unfold fixedDumbIdx; simp
  rw [this]
  refine (code_pivot M B _ _ _ 4 0 (6 * Nd) 0 (3 * kd)
    ?_ rfl rfl (by omega) rfl rfl hB ?_ ?_ ?_).pivots
  · intro a ha; interval_cases a <;> simp <;> omega
  · intro a ha; interval_cases a <;> rfl
  · intro a ha p hp q hq
    interval_cases a <;> simp [blk, NDMat.slice, NDMat.transpose] at hp ⊢ <;>
      exact hS _ (by omega) _ (by omega)
  · intro a ha p hp q hq
    interval_cases a <;> simp [blk, NDMat.slice]

theorem duf2_pivotEntries {kd Nd : ℕ} {M X : NDMat} (hkd : kd ≤ Nd)
    (hS : PSymm (fun i => False ∨ fixedDumbIdx kd 0 i) M.get (6 * Nd))
    (h : fts_to_duf_step2 kd Nd M = some X) :
    Pivots (fixedDiffIdx kd 0 Nd) M.get X.get (6 * Nd) ∧ X.rows = M.rows ∧ X.cols = M.cols := by
  unfold fts_to_duf_step2 at h
  simp only at h
  obtain ⟨B, hB, h⟩ := Option.bind_eq_some_iff.mp h
  obtain rfl := Option.some.inj h
  refine ⟨?_, rfl, rfl⟩
  have : fixedDiffIdx kd 0 Nd = fun i => 3 * Nd ≤ i ∧ i < 3 * Nd + 3 * kd := by
    funext i; unfold fixedDiffIdx; simp
  rw [this]
  refine (code_pivot M B _ _ _ 4 2 (6 * Nd) (3 * Nd) (3 * Nd + 3 * kd)
    ?_ rfl rfl (by omega) rfl rfl hB ?_ ?_ ?_).pivots
  · intro a ha; interval_cases a <;> simp <;> omega
  · intro a ha; interval_cases a <;> rfl
  · intro a ha p hp q hq
    interval_cases a <;> simp [blk, NDMat.slice, NDMat.transpose, NDMat.neg] at hp ⊢
    · rw [(hS p (by omega) (3 * Nd + q) (by omega)).2 (by simp only [false_or]; unfold fixedDumbIdx; omega)]
    · exact (hS _ (by omega) _ (by omega)).1 (by simp only [false_or]; unfold fixedDumbIdx; omega)
    · exact (hS _ (by omega) _ (by omega)).1 (by simp only [false_or]; unfold fixedDumbIdx; omega)
  · intro a ha p hp q hq
    interval_cases a <;> simp [blk, NDMat.slice]

theorem duf1_exists {kd Nd : ℕ} {M : NDMat} (hkd : kd ≤ Nd)
    (hP : PosDef M.get (6 * Nd)) : ∃ X, fts_to_duf_step1 kd Nd M = some X := by
  obtain ⟨B, hB⟩ := inv_of_posDef M (6 * Nd) 0 (3 * kd) (by omega) hP
  unfold fts_to_duf_step1
  simp only [hB, Option.bind_some]
  exact ⟨_, rfl⟩

theorem duf2_exists {kd Nd : ℕ} {M : NDMat} (hkd : kd ≤ Nd)
    (hP : PosDef M.get (6 * Nd)) : ∃ X, fts_to_duf_step2 kd Nd M = some X := by
  obtain ⟨B, hB⟩ := inv_of_posDef M (6 * Nd) (3 * Nd) (3 * Nd + 3 * kd) (by omega) hP
  unfold fts_to_duf_step2
  simp only [hB, Option.bind_some]
  exact ⟨_, rfl⟩

end SD
