import Verif.Spec.Linear
import Mathlib.Tactic.Linarith
import Mathlib.Tactic.Ring
import Mathlib.Algebra.BigOperators.Ring.Finset
import Mathlib.LinearAlgebra.Matrix.NonsingularInverse
import Mathlib.LinearAlgebra.Matrix.ToLinearEquiv
import Mathlib.Algebra.Order.BigOperators.Group.Finset

/-!
# Algebra of principal pivots (no reference to the model)
-/

namespace SD

open Finset Spec

/-- Exchanging the entries in `P` between the two sides turns `M v = f` into `X v' = f'`. -/
def Pivots (P : ℕ → Prop) (M X : ℕ → ℕ → ℝ) (n : ℕ) : Prop :=
  ∀ v f, LinRel M n v f ↔ LinRel X n (swapOn P v f) (swapOn P f v)

theorem swapOn_swapOn (P : ℕ → Prop) (v f : ℕ → ℝ) :
    swapOn P (swapOn P v f) (swapOn P f v) = v := by
  funext i; unfold swapOn; split_ifs <;> rfl

theorem swapOn_comp (P Q : ℕ → Prop) (hd : ∀ i, P i → ¬ Q i) (v f : ℕ → ℝ) :
    swapOn Q (swapOn P v f) (swapOn P f v) = swapOn (fun i => P i ∨ Q i) v f := by
  funext i; unfold swapOn
  have := hd i
  split_ifs <;> first | rfl | tauto

theorem LinRel.congr {M N : ℕ → ℕ → ℝ} {n : ℕ} {v v' f f' : ℕ → ℝ}
    (hM : ∀ i < n, ∀ j < n, M i j = N i j)
    (hv : ∀ i < n, v i = v' i) (hf : ∀ i < n, f i = f' i) : LinRel M n v f ↔ LinRel N n v' f' := by
  unfold LinRel
  refine forall_congr' fun i => forall_congr' fun hi => ?_
  rw [hf i hi, Finset.sum_congr rfl fun j hj => by
    rw [hM i hi j (mem_range.mp hj), hv j (mem_range.mp hj)]]

theorem Pivots.comp {P Q : ℕ → Prop} {M X Y : ℕ → ℕ → ℝ} {n : ℕ} (h1 : Pivots P M X n)
    (h2 : Pivots Q X Y n) (hd : ∀ i, P i → ¬ Q i) : Pivots (fun i => P i ∨ Q i) M Y n := by
  intro v f
  rw [h1, h2, swapOn_comp P Q hd, swapOn_comp P Q hd]

/-- Every left vector of `X` comes from a solution of `M`. -/
theorem Pivots.back {P : ℕ → Prop} {M X : ℕ → ℕ → ℝ} {n : ℕ} (h : Pivots P M X n)
    {w g : ℕ → ℝ} (hw : LinRel X n w g) : LinRel M n (swapOn P w g) (swapOn P g w) := by
  rw [h, swapOn_swapOn, swapOn_swapOn]; exact hw

theorem rel_mul (X : ℕ → ℕ → ℝ) (n : ℕ) (w : ℕ → ℝ) :
    LinRel X n w (fun i => ∑ j ∈ range n, X i j * w j) := fun _ _ => rfl

/-- Positive definiteness survives a pivot. -/
theorem Pivots.posDef {P : ℕ → Prop} {M X : ℕ → ℕ → ℝ} {n : ℕ} (h : Pivots P M X n)
    (hM : PosDef M n) : PosDef X n := by
  intro w hw
  set g : ℕ → ℝ := fun i => ∑ j ∈ range n, X i j * w j with hg
  have hX : LinRel X n w g := rel_mul X n w
  have hb := h.back hX
  set v := swapOn P w g with hv
  set f := swapOn P g w with hf
  have e1 : ∑ i ∈ range n, ∑ j ∈ range n, w i * X i j * w j = ∑ i ∈ range n, w i * g i := by
    refine sum_congr rfl fun i _ => ?_
    rw [hg, mul_sum]; exact sum_congr rfl fun j _ => by ring
  have e2 : ∑ i ∈ range n, w i * g i = ∑ i ∈ range n, v i * f i := by
    refine sum_congr rfl fun i _ => ?_
    rw [hv, hf]; unfold swapOn; split_ifs <;> ring
  have e3 : ∑ i ∈ range n, v i * f i = ∑ i ∈ range n, ∑ j ∈ range n, v i * M i j * v j := by
    refine sum_congr rfl fun i hi => ?_
    rw [← hb i (mem_range.mp hi), mul_sum]; exact sum_congr rfl fun j _ => by ring
  rw [e1, e2, e3]
  apply hM
  by_contra hne
  push Not at hne
  obtain ⟨i, hi, hwi⟩ := hw
  have hf0 : f i = 0 := by
    rw [← hb i hi]
    exact sum_eq_zero fun j hj => by rw [hne j (mem_range.mp hj), mul_zero]
  have hv0 := hne i hi
  rw [hv] at hv0; rw [hf] at hf0
  unfold swapOn at hv0 hf0
  split_ifs at hv0 hf0 <;> exact hwi (by assumption)

/-- Symmetry up to the signs `σ`. -/
def SSymm (σ : ℕ → ℝ) (M : ℕ → ℕ → ℝ) (n : ℕ) : Prop :=
  ∀ i < n, ∀ j < n, σ i * M i j = σ j * M j i

theorem ssymm_one {M : ℕ → ℕ → ℝ} {n : ℕ} (h : Symm M n) : SSymm (fun _ => 1) M n := by
  intro i hi j hj; rw [h i hi j hj]

theorem SSymm.recip {σ : ℕ → ℝ} {M : ℕ → ℕ → ℝ} {n : ℕ} (h : SSymm σ M n) {v f v' f' : ℕ → ℝ}
    (h1 : LinRel M n v f) (h2 : LinRel M n v' f') :
    ∑ i ∈ range n, σ i * (v' i * f i - v i * f' i) = 0 := by
  have a : ∑ i ∈ range n, σ i * (v' i * f i) = ∑ i ∈ range n, ∑ j ∈ range n,
      σ i * M i j * (v' i * v j) := by
    refine sum_congr rfl fun i hi => ?_
    rw [← h1 i (mem_range.mp hi), mul_sum, mul_sum]
    exact sum_congr rfl fun j _ => by ring
  have b : ∑ i ∈ range n, σ i * (v i * f' i) = ∑ j ∈ range n, ∑ i ∈ range n,
      σ j * M j i * (v' i * v j) := by
    refine sum_congr rfl fun i hi => ?_
    rw [← h2 i (mem_range.mp hi), mul_sum, mul_sum]
    exact sum_congr rfl fun j _ => by ring
  have c : ∑ i ∈ range n, σ i * (v' i * f i - v i * f' i)
      = ∑ i ∈ range n, σ i * (v' i * f i) - ∑ i ∈ range n, σ i * (v i * f' i) := by
    rw [← sum_sub_distrib]; exact sum_congr rfl fun i _ => by ring
  rw [c, a, b, sum_comm (s := range n) (t := range n) (f := fun j i => σ j * M j i * (v' i * v j)),
    sub_eq_zero]
  refine sum_congr rfl fun i hi => sum_congr rfl fun j hj => ?_
  rw [h i (mem_range.mp hi) j (mem_range.mp hj)]

open Classical in
/-- A pivot flips the sign pattern of the symmetry on the exchanged entries. -/
theorem Pivots.ssymm {P : ℕ → Prop} {M X : ℕ → ℕ → ℝ} {n : ℕ} (h : Pivots P M X n) {σ : ℕ → ℝ}
    (hM : SSymm σ M n) : SSymm (fun i => if P i then -σ i else σ i) X n := by
  intro i hi j hj
  set w : ℕ → ℝ := fun k => if k = j then 1 else 0 with hw
  set w' : ℕ → ℝ := fun k => if k = i then 1 else 0 with hw'
  have hg : ∀ k, ∑ l ∈ range n, X k l * w l = X k j := by
    intro k; rw [hw]; simp [hj]
  have hg' : ∀ k, ∑ l ∈ range n, X k l * w' l = X k i := by
    intro k; rw [hw']; simp [hi]
  have r1 : LinRel X n w (fun k => X k j) := fun k _ => hg k
  have r2 : LinRel X n w' (fun k => X k i) := fun k _ => hg' k
  have key := hM.recip (h.back r1) (h.back r2)
  have key2 : ∑ k ∈ range n, (if P k then -σ k else σ k) * (w' k * X k j - w k * X k i) = 0 := by
    rw [← key]
    refine sum_congr rfl fun k _ => ?_
    unfold swapOn
    split_ifs <;> ring
  have e : ∑ k ∈ range n, (if P k then -σ k else σ k) * (w' k * X k j - w k * X k i)
      = (if P i then -σ i else σ i) * X i j - (if P j then -σ j else σ j) * X j i := by
    have : ∀ k, (if P k then -σ k else σ k) * (w' k * X k j - w k * X k i)
        = (if k = i then (if P k then -σ k else σ k) * X k j else 0)
          - (if k = j then (if P k then -σ k else σ k) * X k i else 0) := by
      intro k; rw [hw, hw']; by_cases h1 : k = i <;> by_cases h2 : k = j <;> simp [h1, h2] <;> split_ifs <;> ring
    simp only [this, sum_sub_distrib]
    simp [hi, hj]
  rw [e] at key2
  exact sub_eq_zero.mp key2

/-! ## Entry formulas imply a pivot -/

/-- Entry formulas for the pivot on the block `[lo, up)`; `B` is the inverse of that block of `M`
(absolute indices). -/
structure PivotEntries (M X B : ℕ → ℕ → ℝ) (lo up n : ℕ) : Prop where
  hn : up ≤ n
  left : ∀ i ∈ Ico lo up, ∀ j ∈ Ico lo up,
    ∑ r ∈ Ico lo up, B i r * M r j = if i = j then 1 else 0
  right : ∀ i ∈ Ico lo up, ∀ j ∈ Ico lo up,
    ∑ r ∈ Ico lo up, M i r * B r j = if i = j then 1 else 0
  pp : ∀ i ∈ Ico lo up, ∀ j ∈ Ico lo up, X i j = B i j
  pq : ∀ i ∈ Ico lo up, ∀ j < n, j ∉ Ico lo up → X i j = -∑ r ∈ Ico lo up, B i r * M r j
  qp : ∀ i < n, i ∉ Ico lo up → ∀ j ∈ Ico lo up, X i j = ∑ r ∈ Ico lo up, M i r * B r j
  qq : ∀ i < n, i ∉ Ico lo up → ∀ j < n, j ∉ Ico lo up →
    X i j = M i j - ∑ r ∈ Ico lo up, (∑ q ∈ Ico lo up, M i q * B q r) * M r j

theorem sum_assoc (S T : Finset ℕ) (b : ℕ → ℝ) (N : ℕ → ℕ → ℝ) (v : ℕ → ℝ) :
    ∑ p ∈ T, b p * (∑ j ∈ S, N p j * v j) = ∑ j ∈ S, (∑ p ∈ T, b p * N p j) * v j := by
  simp only [mul_sum, sum_mul]
  rw [sum_comm]
  exact sum_congr rfl fun j _ => sum_congr rfl fun p _ => by ring

theorem sum_split (lo up n : ℕ) (hn : up ≤ n) (g : ℕ → ℝ) :
    ∑ j ∈ range n, g j = ∑ j ∈ Ico lo up, g j + ∑ j ∈ range n \ Ico lo up, g j := by
  have hsub : Ico lo up ⊆ range n := by
    intro x hx; rw [mem_Ico] at hx; rw [mem_range]; omega
  rw [add_comm, sum_sdiff hsub]

theorem sum_ite_eq_one {S : Finset ℕ} {i : ℕ} (hi : i ∈ S) (v : ℕ → ℝ) :
    ∑ j ∈ S, (if i = j then (1 : ℝ) else 0) * v j = v i := by
  rw [sum_eq_single i]
  · simp
  · intro j _ hj; rw [if_neg (Ne.symm hj), zero_mul]
  · intro h; exact absurd hi h

theorem PivotEntries.pivots {M X B : ℕ → ℕ → ℝ} {lo up n : ℕ} (h : PivotEntries M X B lo up n) :
    Pivots (fun i => lo ≤ i ∧ i < up) M X n := by
  intro v f
  have hsw : ∀ (v f : ℕ → ℝ) i, i ∈ Ico lo up → swapOn (fun i => lo ≤ i ∧ i < up) v f i = f i := by
    intro v f i hi; rw [mem_Ico] at hi; unfold swapOn; rw [if_pos hi]
  have hsw' : ∀ (v f : ℕ → ℝ) i, i ∉ Ico lo up →
      swapOn (fun i => lo ≤ i ∧ i < up) v f i = v i := by
    intro v f i hi; rw [mem_Ico] at hi; unfold swapOn; rw [if_neg hi]
  have hPn : ∀ i ∈ Ico lo up, i < n := by
    intro i hi; rw [mem_Ico] at hi; have := h.hn; omega
  have hQn : ∀ i ∈ range n \ Ico lo up, i < n ∧ i ∉ Ico lo up := by
    intro i hi; rw [mem_sdiff, mem_range] at hi; exact hi
  -- rewriting of a row of `X`
  have rowP : ∀ i ∈ Ico lo up, ∑ j ∈ range n, X i j * swapOn (fun i => lo ≤ i ∧ i < up) v f j
      = ∑ r ∈ Ico lo up, B i r * (f r - ∑ j ∈ range n \ Ico lo up, M r j * v j) := by
    intro i hi
    rw [sum_split lo up n h.hn]
    have a : ∑ j ∈ Ico lo up, X i j * swapOn (fun i => lo ≤ i ∧ i < up) v f j
        = ∑ r ∈ Ico lo up, B i r * f r :=
      sum_congr rfl fun j hj => by rw [h.pp i hi j hj, hsw _ _ j hj]
    have b : ∑ j ∈ range n \ Ico lo up, X i j * swapOn (fun i => lo ≤ i ∧ i < up) v f j
        = -∑ r ∈ Ico lo up, B i r * ∑ j ∈ range n \ Ico lo up, M r j * v j := by
      rw [sum_assoc, ← sum_neg_distrib]
      refine sum_congr rfl fun j hj => ?_
      rw [h.pq i hi j (hQn j hj).1 (hQn j hj).2, hsw' _ _ j (hQn j hj).2]; ring
    rw [a, b, ← sub_eq_add_neg, ← sum_sub_distrib]
    exact sum_congr rfl fun r _ => by ring
  have rowQ : ∀ i < n, i ∉ Ico lo up →
      ∑ j ∈ range n, X i j * swapOn (fun i => lo ≤ i ∧ i < up) v f j
      = ∑ q ∈ Ico lo up, M i q *
          (∑ r ∈ Ico lo up, B q r * (f r - ∑ j ∈ range n \ Ico lo up, M r j * v j))
        + ∑ j ∈ range n \ Ico lo up, M i j * v j := by
    intro i hi hiP
    rw [sum_split lo up n h.hn, sum_assoc]
    have a : ∑ j ∈ Ico lo up, X i j * swapOn (fun i => lo ≤ i ∧ i < up) v f j
        = ∑ r ∈ Ico lo up, (∑ q ∈ Ico lo up, M i q * B q r) * f r :=
      sum_congr rfl fun j hj => by rw [h.qp i hi hiP j hj, hsw _ _ j hj]
    have b : ∑ j ∈ range n \ Ico lo up, X i j * swapOn (fun i => lo ≤ i ∧ i < up) v f j
        = ∑ j ∈ range n \ Ico lo up, M i j * v j
          - ∑ r ∈ Ico lo up, (∑ q ∈ Ico lo up, M i q * B q r) *
              ∑ j ∈ range n \ Ico lo up, M r j * v j := by
      rw [sum_assoc, ← sum_sub_distrib]
      refine sum_congr rfl fun j hj => ?_
      rw [h.qq i hi hiP j (hQn j hj).1 (hQn j hj).2, hsw' _ _ j (hQn j hj).2]; ring
    rw [a, b]
    simp only [mul_sub, sum_sub_distrib]
    ring
  constructor
  · intro hR
    -- the pivoted unknowns
    have hP : ∀ i ∈ Ico lo up, v i
        = ∑ r ∈ Ico lo up, B i r * (f r - ∑ j ∈ range n \ Ico lo up, M r j * v j) := by
      intro i hi
      have : ∀ r ∈ Ico lo up, f r - ∑ j ∈ range n \ Ico lo up, M r j * v j
          = ∑ j ∈ Ico lo up, M r j * v j := by
        intro r hr
        rw [← hR r (hPn r hr), sum_split lo up n h.hn]; ring
      rw [sum_congr rfl fun r hr => by rw [this r hr], sum_assoc,
        sum_congr rfl fun j hj => by rw [h.left i hi j hj], sum_ite_eq_one hi]
    intro i hi
    by_cases hiP : i ∈ Ico lo up
    · rw [rowP i hiP, hsw _ _ i hiP, ← hP i hiP]
    · rw [rowQ i hi hiP, hsw' _ _ i hiP, ← hR i hi, sum_split lo up n h.hn]
      congr 1
      exact sum_congr rfl fun q hq => by rw [← hP q hq]
  · intro hX
    have hP : ∀ i ∈ Ico lo up, v i
        = ∑ r ∈ Ico lo up, B i r * (f r - ∑ j ∈ range n \ Ico lo up, M r j * v j) := by
      intro i hi
      have := hX i (hPn i hi)
      rw [rowP i hi, hsw _ _ i hi] at this
      exact this.symm
    intro i hi
    rw [sum_split lo up n h.hn]
    by_cases hiP : i ∈ Ico lo up
    · have : ∑ j ∈ Ico lo up, M i j * v j = f i - ∑ j ∈ range n \ Ico lo up, M i j * v j := by
        rw [sum_congr rfl fun j hj => by rw [hP j hj], sum_assoc,
          sum_congr rfl fun j hj => by rw [h.right i hiP j hj], sum_ite_eq_one hiP]
      rw [this]; ring
    · have := hX i hi
      rw [rowQ i hi hiP, hsw' _ _ i hiP] at this
      rw [← this]
      congr 1
      exact sum_congr rfl fun q hq => by rw [← hP q hq]

end SD
