import Verif.Model.SimTools
import Verif.Spec.Linear
import Mathlib.Tactic.Linarith
import Mathlib.Tactic.Ring
import Mathlib.Tactic.IntervalCases

/-!
# The block eliminations of `simulation_tools.py` are principal pivots
-/

namespace SD

open Finset Spec

/-- An entry that some step of a fold sets to `v`, and no step sets to anything else, ends up `v`. -/
theorem foldl_get {α : Type*} (l : List α) (step : NDMat → α → NDMat) (i j : ℕ) (v : ℝ)
    (hother : ∀ a ∈ l, ∀ D, (step D a).get i j = v ∨ (step D a).get i j = D.get i j)
    (hcover : ∃ a ∈ l, ∀ D, (step D a).get i j = v) (D0 : NDMat) :
    (l.foldl step D0).get i j = v := by
  induction l using List.reverseRecOn generalizing D0 with
  | nil => simp at hcover
  | append_singleton l a ih =>
    rw [List.foldl_append, List.foldl_cons, List.foldl_nil]
    rcases hcover with ⟨b, hb, hb'⟩
    rw [List.mem_append, List.mem_singleton] at hb
    rcases hb with hb | rfl
    · rcases hother a (by simp) (l.foldl step D0) with h | h
      · exact h
      · rw [h]
        exact ih (fun a ha => hother a (by simp [ha])) ⟨b, hb, hb'⟩ D0
    · exact hb' _

/-- An entry that no step of a fold touches keeps its value. -/
theorem foldl_get_same {α : Type*} (l : List α) (step : NDMat → α → NDMat) (i j : ℕ)
    (hother : ∀ a ∈ l, ∀ D, (step D a).get i j = D.get i j) (D0 : NDMat) :
    (l.foldl step D0).get i j = D0.get i j := by
  induction l using List.reverseRecOn generalizing D0 with
  | nil => rfl
  | append_singleton l a ih =>
    rw [List.foldl_append, List.foldl_cons, List.foldl_nil, hother a (by simp)]
    exact ih (fun a ha => hother a (by simp [ha])) D0

theorem NDMat.setBlock_in (D V : NDMat) {r0 r1 c0 c1 i j : ℕ} (hi : r0 ≤ i ∧ i < r1)
    (hj : c0 ≤ j ∧ j < c1) : (D.setBlock r0 r1 c0 c1 V).get i j = V.get (i - r0) (j - c0) := by
  simp only [NDMat.setBlock]; rw [if_pos]; tauto

theorem NDMat.setBlock_out (D V : NDMat) {r0 r1 c0 c1 i j : ℕ}
    (h : ¬ ((r0 ≤ i ∧ i < r1) ∧ (c0 ≤ j ∧ j < c1))) :
    (D.setBlock r0 r1 c0 c1 V).get i j = D.get i j := by
  simp only [NDMat.setBlock]; rw [if_neg]; tauto

/-- The breakpoints `s 0 ≤ s 1 ≤ … ≤ s k` tile `[0, n)`: each index is in exactly one block. -/
theorem exists_block (s : ℕ → ℕ) (k n : ℕ) (h0 : s 0 = 0) (hn : s k = n) {i : ℕ} (hi : i < n) :
    ∃ a < k, s a ≤ i ∧ i < s (a + 1) := by
  induction k generalizing n with
  | zero => omega
  | succ k ih =>
    by_cases h : i < s k
    · obtain ⟨a, ha, h1⟩ := ih (s k) rfl h
      exact ⟨a, by omega, h1⟩
    · exact ⟨k, by omega, by omega, by omega⟩

theorem mono_of_step (s : ℕ → ℕ) (k : ℕ) (hm : ∀ a < k, s a ≤ s (a + 1)) {a b : ℕ} (hab : a ≤ b)
    (hb : b ≤ k) : s a ≤ s b := by
  induction b with
  | zero => simp_all
  | succ b ih =>
    rcases Nat.lt_or_ge a (b + 1) with h | h
    · exact (ih (by omega) (by omega)).trans (hm b (by omega))
    · have : a = b + 1 := by omega
      subst this; rfl

theorem block_unique (s : ℕ → ℕ) (k : ℕ) (hm : ∀ a < k, s a ≤ s (a + 1)) {a b i : ℕ}
    (ha : a < k) (hb : b < k) (h1 : s a ≤ i ∧ i < s (a + 1)) (h2 : s b ≤ i ∧ i < s (b + 1)) :
    a = b := by
  rcases lt_trichotomy a b with h | h | h
  · have := mono_of_step s k hm (a := a + 1) (b := b) (by omega) (by omega); omega
  · exact h
  · have := mono_of_step s k hm (a := b + 1) (b := a) (by omega) (by omega); omega

theorem vecmat_get (A : List NDMat) (B : NDMat) (C : List NDMat) (n k : ℕ) (starts : List ℕ)
    (hm : ∀ a < k, starts.getD a 0 ≤ starts.getD (a + 1) 0)
    {a c i j : ℕ} (ha : a < k) (hc : c < k)
    (hi : starts.getD a 0 ≤ i ∧ i < starts.getD (a + 1) 0)
    (hj : starts.getD c 0 ≤ j ∧ j < starts.getD (c + 1) 0) :
    (vecmat_mat_vecmat A B C n k starts).get i j
      = (NDMat.dot (NDMat.dot (blk A a) B) (blk C c)).get
          (i - starts.getD a 0) (j - starts.getD c 0) := by
  unfold vecmat_mat_vecmat
  apply foldl_get
  · intro a' ha' D
    have ha'k : a' < k := List.mem_range.mp ha'
    by_cases haa : a' = a
    · subst haa
      left
      apply foldl_get
      · intro c' hc' D
        have hc'k : c' < k := List.mem_range.mp hc'
        by_cases hcc : c' = c
        · subst hcc; left; exact NDMat.setBlock_in _ _ hi hj
        · right
          have : ¬ (starts.getD c' 0 ≤ j ∧ j < starts.getD (c' + 1) 0) := fun h =>
            hcc (block_unique (fun a => starts.getD a 0) k hm hc'k hc h hj)
          simp only [NDMat.setBlock]
          rw [if_neg]; tauto
      · exact ⟨c, List.mem_range.mpr hc, fun D => NDMat.setBlock_in _ _ hi hj⟩
    · right
      apply foldl_get_same
      intro c' _ D
      have : ¬ (starts.getD a' 0 ≤ i ∧ i < starts.getD (a' + 1) 0) := fun h =>
        haa (block_unique (fun a => starts.getD a 0) k hm ha'k ha h hi)
      simp only [NDMat.setBlock]
      rw [if_neg]; tauto
  · refine ⟨a, List.mem_range.mpr ha, fun D => ?_⟩
    apply foldl_get
    · intro c' hc' D
      have hc'k : c' < k := List.mem_range.mp hc'
      by_cases hcc : c' = c
      · subst hcc; left; exact NDMat.setBlock_in _ _ hi hj
      · right
        have : ¬ (starts.getD c' 0 ≤ j ∧ j < starts.getD (c' + 1) 0) := fun h =>
          hcc (block_unique (fun a => starts.getD a 0) k hm hc'k hc h hj)
        simp only [NDMat.setBlock]
        rw [if_neg]; tauto
    · exact ⟨c, List.mem_range.mpr hc, fun D => NDMat.setBlock_in _ _ hi hj⟩

/-- The value `vec_mat_cross` writes into block `(a, c)`. -/
def crossVal (A : List NDMat) (B : NDMat) (C : List NDMat) (x a c p q : ℕ) : ℝ :=
  if a = x ∧ c ≠ x then (NDMat.dot B (blk C c)).get p q
  else if a ≠ x ∧ c = x then -(NDMat.dot (blk A a) B).get p q
  else if a = x then -B.get p q else 0

theorem cross_get (A : List NDMat) (B : NDMat) (C : List NDMat) (n k : ℕ) (starts : List ℕ) (x : ℕ)
    (hm : ∀ a < k, starts.getD a 0 ≤ starts.getD (a + 1) 0)
    {a c i j : ℕ} (ha : a < k) (hc : c < k)
    (hi : starts.getD a 0 ≤ i ∧ i < starts.getD (a + 1) 0)
    (hj : starts.getD c 0 ≤ j ∧ j < starts.getD (c + 1) 0) :
    (vec_mat_cross A B C n k starts x).get i j
      = crossVal A B C x a c (i - starts.getD a 0) (j - starts.getD c 0) := by
  unfold vec_mat_cross
  -- a single step at block `(a', c')` either leaves `(i, j)` alone or is the block `(a, c)`
  have hstep : ∀ a' < k, ∀ c' < k, ¬ (a' = a ∧ c' = c) → ∀ (D : NDMat) (V : NDMat),
      (D.setBlock (starts.getD a' 0) (starts.getD (a' + 1) 0) (starts.getD c' 0)
        (starts.getD (c' + 1) 0) V).get i j = D.get i j := by
    intro a' ha' c' hc' hne D V
    simp only [NDMat.setBlock]
    rw [if_neg]
    rintro ⟨h1, h2, h3, h4⟩
    exact hne ⟨block_unique (fun a => starts.getD a 0) k hm ha' ha ⟨h1, h2⟩ hi,
      block_unique (fun a => starts.getD a 0) k hm hc' hc ⟨h3, h4⟩ hj⟩
  have hself : ∀ (D V : NDMat), (D.setBlock (starts.getD a 0) (starts.getD (a + 1) 0)
      (starts.getD c 0) (starts.getD (c + 1) 0) V).get i j
      = V.get (i - starts.getD a 0) (j - starts.getD c 0) := by
    intro D V; exact NDMat.setBlock_in _ _ hi hj
  by_cases hx : a = x ∨ c = x
  · have inner : ∀ D : NDMat, ((List.range k).foldl (fun D Ci =>
        if a = x ∧ Ci ≠ x then
          D.setBlock (starts.getD a 0) (starts.getD (a + 1) 0)
            (starts.getD Ci 0) (starts.getD (Ci + 1) 0) (NDMat.dot B (blk C Ci))
        else if a ≠ x ∧ Ci = x then
          D.setBlock (starts.getD a 0) (starts.getD (a + 1) 0)
            (starts.getD Ci 0) (starts.getD (Ci + 1) 0) (NDMat.dot (blk A a) B).neg
        else if a = x then
          D.setBlock (starts.getD a 0) (starts.getD (a + 1) 0)
            (starts.getD Ci 0) (starts.getD (Ci + 1) 0) B.neg
        else D) D).get i j
          = crossVal A B C x a c (i - starts.getD a 0) (j - starts.getD c 0) := by
      intro D
      apply foldl_get
      · intro c' hc' D
        have hc'k := List.mem_range.mp hc'
        by_cases hcc : c' = c
        · subst hcc; left
          unfold crossVal
          split_ifs <;> simp_all [NDMat.neg]
        · right
          split_ifs <;> first | rfl | exact hstep a ha c' hc'k (by tauto) _ _
      · refine ⟨c, List.mem_range.mpr hc, fun D => ?_⟩
        unfold crossVal
        split_ifs <;> simp_all [NDMat.neg]
    apply foldl_get
    · intro a' ha' D
      have ha'k := List.mem_range.mp ha'
      by_cases haa : a' = a
      · subst haa; left; exact inner D
      · right
        apply foldl_get_same
        intro c' hc' D
        have hc'k := List.mem_range.mp hc'
        split_ifs <;> first | rfl | exact hstep a' ha'k c' hc'k (by tauto) _ _
    · exact ⟨a, List.mem_range.mpr ha, inner⟩
  · have : crossVal A B C x a c (i - starts.getD a 0) (j - starts.getD c 0) = 0 := by
      unfold crossVal
      rw [if_neg (by tauto), if_neg (by tauto), if_neg (by tauto)]
    rw [this]
    rw [foldl_get_same]
    · rfl
    · intro a' ha' D
      have ha'k := List.mem_range.mp ha'
      apply foldl_get_same
      intro c' hc' D
      have hc'k := List.mem_range.mp hc'
      by_cases hac : a' = a ∧ c' = c
      · obtain ⟨rfl, rfl⟩ := hac
        rw [if_neg (by tauto), if_neg (by tauto), if_neg (by tauto)]
      · split_ifs <;> first | rfl | exact hstep a' ha'k c' hc'k hac _ _

end SD
