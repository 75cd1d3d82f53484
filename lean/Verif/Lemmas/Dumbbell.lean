import Verif.Model.Minfinity
import Verif.Spec.Dumbbell

/-!
# The sparse matrices that change to dumbbell coordinates
-/

set_option autoImplicit false

namespace SD

open Spec

/-- A diagonal run of equal entries. -/
def run (b c m : ℕ) (v : ℝ) : List (ℕ × ℕ × ℝ) := (List.range m).map fun k => (b + k, c + k, v)

theorem zip_run {α : Type} (l : List α) (f g : α → ℕ) (v : ℝ) (n : ℕ) (hn : n = l.length) :
    (l.map f).zip ((l.map g).zip (List.replicate n v)) = l.map fun k => (f k, g k, v) := by
  subst hn
  induction l with
  | nil => rfl
  | cons a l ih => simp [List.replicate_succ, ih]

theorem zip3_append {as bs : List ℕ} {as' bs' : List ℕ} {cs cs' : List ℝ}
    (h1 : as.length = bs.length) (h2 : bs.length = cs.length) :
    (as ++ as').zip ((bs ++ bs').zip (cs ++ cs')) = as.zip (bs.zip cs) ++ as'.zip (bs'.zip cs') := by
  rw [List.zip_append h2, List.zip_append]
  rw [List.length_zip, ← h2, h1, min_self]

theorem zip_runs (a b : ℕ) (x y : ℝ) (n1 n2 : ℕ) (hn : n1 = a) (hm : n2 = b * 3) :
    (List.range (a + b * 2) ++ (List.range b).map (· + a) ++ (List.range b).map (· + a + b)).zip
      ((List.range (a + b * 2) ++ (List.range b).map (· + a + b) ++ (List.range b).map (· + a)).zip
        (List.replicate n1 x ++ List.replicate n2 y ++ List.replicate b (-y)))
    = run 0 0 a x ++ run a a (b * 2) y ++ run a (a + b) b y ++ run (a + b) a b (-y) := by
  subst hn hm
  rw [zip3_append (by simp) (by simp; omega)]
  rw [show b * 3 = b * 2 + b by ring, List.replicate_add, ← List.append_assoc]
  rw [zip3_append (by simp) (by simp)]
  rw [List.range_add, zip3_append (by simp) (by simp)]
  congr 1
  · congr 1
    · congr 1
      · have := zip_run (List.range n1) id id x n1 (by simp)
        simp only [List.map_id, id] at this
        rw [this]; simp [run]
      · rw [zip_run _ _ _ _ _ (by simp)]; rfl
    · rw [zip_run _ _ _ _ _ (by simp)]
      simp only [run]
      apply List.map_congr_left
      intro k _
      simp only [Prod.mk.injEq, and_true]; omega
  · rw [zip_run _ _ _ _ _ (by simp)]
    simp only [run]
    apply List.map_congr_left
    intro k _
    simp only [Prod.mk.injEq, and_true]; omega

theorem run_sum (b c m : ℕ) (v : ℝ) (i j : ℕ) :
    ((run b c m v).map fun e => if e.1 = i ∧ e.2.1 = j then e.2.2 else 0).sum
      = if b ≤ i ∧ i < b + m ∧ j + b = c + i then v else 0 := by
  induction m with
  | zero => rw [if_neg (by omega)]; simp [run]
  | succ m ih =>
    have e : run b c (m + 1) v = run b c m v ++ [(b + m, c + m, v)] := by
      simp [run, List.range_succ]
    rw [e, List.map_append, List.sum_append, ih]
    simp only [List.map_cons, List.map_nil, List.sum_cons, List.sum_nil, add_zero]
    by_cases h1 : b + m = i ∧ c + m = j
    · rw [if_pos h1, if_neg (by omega), if_pos (by omega), zero_add]
    · rw [if_neg h1, add_zero]
      exact if_congr (by omega) rfl rfl

/-- Entries of the sparse matrix with diagonal `x` then `y`, and off-diagonal `y`, `-y`. -/
theorem coo_runs (n a b : ℕ) (x y : ℝ) (i j : ℕ) :
    (cooMatrix n (run 0 0 a x ++ run a a (b * 2) y ++ run a (a + b) b y
      ++ run (a + b) a b (-y))).get i j
    = (if i < a ∧ j = i then x else 0) + (if a ≤ i ∧ i < a + b * 2 ∧ j = i then y else 0)
      + (if a ≤ i ∧ i < a + b ∧ j = i + b then y else 0)
      + (if a + b ≤ i ∧ i < a + b + b ∧ j + b = i then -y else 0) := by
  simp only [cooMatrix, List.map_append, List.sum_append, run_sum]
  refine congrArg₂ (· + ·) (congrArg₂ (· + ·) (congrArg₂ (· + ·) ?_ ?_) ?_) ?_ <;>
    exact if_congr (by omega) rfl rfl

theorem sum_pick (n : ℕ) (w : ℕ → ℝ) (v : ℝ) (P : ℕ → Prop) [DecidablePred P] (A : Prop)
    [Decidable A] (k0 : ℕ) (h : ∀ k < n, (P k ↔ (A ∧ k = k0))) (hk : A → k0 < n) :
    ∑ k ∈ Finset.range n, (if P k then v else 0) * w k = if A then v * w k0 else 0 := by
  by_cases hA : A
  · rw [if_pos hA, Finset.sum_eq_single k0]
    · rw [if_pos ((h k0 (hk hA)).mpr ⟨hA, rfl⟩)]
    · intro k hk' hne
      rw [if_neg, zero_mul]
      intro hp
      exact hne ((h k (Finset.mem_range.mp hk')).mp hp).2
    · intro hk'
      exact absurd (Finset.mem_range.mpr (hk hA)) hk'
  · rw [if_neg hA]
    apply Finset.sum_eq_zero
    intro k hk'
    rw [if_neg, zero_mul]
    intro hp
    exact hA ((h k (Finset.mem_range.mp hk')).mp hp).1

theorem coo_runs_mulVec (a b : ℕ) (x y : ℝ) (w : ℕ → ℝ) (i : ℕ) (hi : i < a + b * 2) :
    ∑ k ∈ Finset.range (a + b * 2), (cooMatrix (a + b * 2) (run 0 0 a x ++ run a a (b * 2) y
      ++ run a (a + b) b y ++ run (a + b) a b (-y))).get i k * w k
    = if i < a then x * w i else if i < a + b then y * w i + y * w (i + b)
      else y * w i - y * w (i - b) := by
  simp only [coo_runs, add_mul, Finset.sum_add_distrib]
  rw [sum_pick _ w x _ (i < a) i (by intros; rfl) (by omega),
    sum_pick _ w y _ (a ≤ i ∧ i < a + b * 2) i (by intros; tauto) (by omega),
    sum_pick _ w y _ (a ≤ i ∧ i < a + b) (i + b) (by intros; tauto) (by omega),
    sum_pick _ w (-y) _ (a + b ≤ i ∧ i < a + b + b) (i - b) (by intros; omega) (by omega)]
  by_cases h1 : i < a
  · rw [if_pos h1, if_neg (by omega), if_neg (by omega), if_neg (by omega), if_pos h1]; ring
  · by_cases h2 : i < a + b
    · rw [if_neg h1, if_pos (by omega), if_pos (by omega), if_neg (by omega), if_neg h1, if_pos h2]
      ring
    · rw [if_neg h1, if_pos (by omega), if_neg (by omega), if_pos (by omega), if_neg h1, if_neg h2]
      ring

theorem coo_runs_vecMul (a b : ℕ) (x y : ℝ) (w : ℕ → ℝ) (j : ℕ) (hj : j < a + b * 2) :
    ∑ k ∈ Finset.range (a + b * 2), (cooMatrix (a + b * 2) (run 0 0 a x ++ run a a (b * 2) y
      ++ run a (a + b) b y ++ run (a + b) a b (-y))).get k j * w k
    = if j < a then x * w j else if j < a + b then y * w j - y * w (j + b)
      else y * w j + y * w (j - b) := by
  simp only [coo_runs, add_mul, Finset.sum_add_distrib]
  rw [sum_pick _ w x _ (j < a) j (by intros; omega) (by omega),
    sum_pick _ w y _ (a ≤ j ∧ j < a + b * 2) j (by intros; omega) (by omega),
    sum_pick _ w y _ (a + b ≤ j ∧ j < a + b * 2) (j - b) (by intros; omega) (by omega),
    sum_pick _ w (-y) _ (a ≤ j ∧ j < a + b) (j + b) (by intros; omega) (by omega)]
  by_cases h1 : j < a
  · rw [if_pos h1, if_neg (by omega), if_neg (by omega), if_neg (by omega), if_pos h1]; ring
  · by_cases h2 : j < a + b
    · rw [if_neg h1, if_pos (by omega), if_neg (by omega), if_pos (by omega), if_neg h1, if_pos h2]
      ring
    · rw [if_neg h1, if_pos (by omega), if_pos (by omega), if_neg (by omega), if_neg h1, if_neg h2]
      ring

theorem dumbbellLEntries_eq (Ns Nd : ℕ) : dumbbellLEntries Ns Nd =
    run 0 0 (11 * Ns) 1 ++ run (11 * Ns) (11 * Ns) (3 * Nd * 2) 0.5
      ++ run (11 * Ns) (11 * Ns + 3 * Nd) (3 * Nd) 0.5
      ++ run (11 * Ns + 3 * Nd) (11 * Ns) (3 * Nd) (-0.5) := by
  unfold dumbbellLEntries
  rw [← zip_runs (11 * Ns) (3 * Nd) 1 0.5 (11 * Ns) (9 * Nd) rfl (by omega),
    show 11 * Ns + 6 * Nd = 11 * Ns + 3 * Nd * 2 by omega]

/-- Multiplying by `L A Lᵀ`. -/
theorem dot_dot_mulVec (L A : NDMat) (n : ℕ) (hL : L.rows = n ∧ L.cols = n) (hA : A.rows = n ∧ A.cols = n)
    (w : ℕ → ℝ) (i : ℕ) :
    mulVec n ((L.dot A).dot L.transpose).get w i
      = mulVec n L.get (mulVec n A.get (mulVec n (fun i j => L.get j i) w)) i := by
  unfold mulVec
  simp only [NDMat.dot, NDMat.transpose, hL.1, hL.2, hA.2, Finset.sum_mul, Finset.mul_sum]
  rw [Finset.sum_comm]
  have : ∀ k, ∑ m ∈ Finset.range n, ∑ j ∈ Finset.range n, L.get i j * A.get j k * L.get m k * w m
      = ∑ j ∈ Finset.range n, ∑ m ∈ Finset.range n, L.get i j * (A.get j k * (L.get m k * w m)) := by
    intro k
    rw [Finset.sum_comm]
    exact Finset.sum_congr rfl fun _ _ => Finset.sum_congr rfl fun _ _ => by ring
  simp only [this]
  rw [Finset.sum_comm]

end SD
