import Verif.Model.Layout
import Verif.Lemmas.Pivot

/-!
# Rows of a grand matrix and the blocks written into it
-/

set_option autoImplicit false

namespace SD

/-- The five groups of rows of a grand matrix. -/
inductive Kind
  | F | T | S | B1 | B2
  deriving DecidableEq

/-- Number of components. -/
def Kind.dim : Kind → ℕ
  | .S => 5
  | _ => 3

/-- First row of the group for the bead `u`. -/
def base (Ns Nd : ℕ) : Kind → ℕ → ℕ
  | .F, u => u * 3
  | .T, u => 3 * Ns + u * 3
  | .S, u => 6 * Ns + u * 5
  | .B1, u => 11 * Ns + (u - Ns) * 3
  | .B2, u => 11 * Ns + 3 * Nd + (u - Ns - Nd) * 3

/-- Bead `u` has rows in group `k`. -/
def owns (Ns Nd : ℕ) : Kind → ℕ → Prop
  | .F, u => u < Ns
  | .T, u => u < Ns
  | .S, u => u < Ns
  | .B1, u => Ns ≤ u ∧ u < Ns + Nd
  | .B2, u => Ns + Nd ≤ u ∧ u < Ns + 2 * Nd

theorem slot_exists {Ns Nd i : ℕ} (h : i < 11 * Ns + 6 * Nd) :
    ∃ k u p, owns Ns Nd k u ∧ p < k.dim ∧ i = base Ns Nd k u + p := by
  by_cases h1 : i < 3 * Ns
  · exact ⟨.F, i / 3, i % 3, by simp only [owns]; omega, by simp only [Kind.dim]; omega,
      by simp only [base]; omega⟩
  by_cases h2 : i < 6 * Ns
  · exact ⟨.T, (i - 3 * Ns) / 3, (i - 3 * Ns) % 3, by simp only [owns]; omega,
      by simp only [Kind.dim]; omega, by simp only [base]; omega⟩
  by_cases h3 : i < 11 * Ns
  · exact ⟨.S, (i - 6 * Ns) / 5, (i - 6 * Ns) % 5, by simp only [owns]; omega,
      by simp only [Kind.dim]; omega, by simp only [base]; omega⟩
  by_cases h4 : i < 11 * Ns + 3 * Nd
  · exact ⟨.B1, Ns + (i - 11 * Ns) / 3, (i - 11 * Ns) % 3, by simp only [owns]; omega,
      by simp only [Kind.dim]; omega, by simp only [base]; omega⟩
  · exact ⟨.B2, Ns + Nd + (i - 11 * Ns - 3 * Nd) / 3, (i - 11 * Ns - 3 * Nd) % 3,
      by simp only [owns]; omega, by simp only [Kind.dim]; omega, by simp only [base]; omega⟩

theorem slot_lt {Ns Nd : ℕ} {k : Kind} {u p : ℕ} (h : owns Ns Nd k u) (hp : p < k.dim) :
    base Ns Nd k u + p < 11 * Ns + 6 * Nd := by
  cases k <;> simp only [owns, Kind.dim, base] at * <;> omega

theorem slot_unique {Ns Nd : ℕ} {k k' : Kind} {u u' p p' : ℕ} (h : owns Ns Nd k u)
    (h' : owns Ns Nd k' u') (hp : p < k.dim) (hp' : p' < k'.dim)
    (e : base Ns Nd k u + p = base Ns Nd k' u' + p') : k = k' ∧ u = u' ∧ p = p' := by
  cases k <;> cases k' <;> simp only [owns, Kind.dim, base, true_and, reduceCtorEq, false_and] at *
    <;> omega

theorem owns_lt {Ns Nd : ℕ} {k : Kind} {u : ℕ} (h : owns Ns Nd k u) : u < Ns + 2 * Nd := by
  cases k <;> simp only [owns] at h <;> omega

/-- Effect of writing the block of groups `k1, k2` and beads `u1, u2`. -/
theorem writeAt_get {Ns Nd : ℕ} {k1 k2 kx ky : Kind} {u1 u2 x y p q : ℕ}
    (h1 : owns Ns Nd k1 u1) (h2 : owns Ns Nd k2 u2) (hx : owns Ns Nd kx x) (hy : owns Ns Nd ky y)
    (hp : p < kx.dim) (hq : q < ky.dim) (D : NDMat) (f : ℕ → ℕ → ℝ) (h w : ℕ)
    (hh : h = k1.dim) (hw : w = k2.dim) (rc : ℕ × ℕ)
    (hrc : rc = (base Ns Nd k1 u1, base Ns Nd k2 u2)) :
    (writeAt D rc h w f).get (base Ns Nd kx x + p) (base Ns Nd ky y + q)
      = if (kx = k1 ∧ ky = k2) ∧ x = u1 ∧ y = u2 then f p q
        else D.get (base Ns Nd kx x + p) (base Ns Nd ky y + q) := by
  subst hh hw hrc
  unfold writeAt
  split_ifs with hc
  · obtain ⟨⟨rfl, rfl⟩, rfl, rfl⟩ := hc
    rw [NDMat.setBlock_in _ _ (by dsimp only; omega) (by dsimp only; omega)]
    simp
  · rw [NDMat.setBlock_out]
    rintro ⟨⟨ha, hb⟩, hc', hd⟩
    apply hc
    dsimp only at ha hb hc' hd
    have e1 := slot_unique hx h1 hp (p' := base Ns Nd kx x + p - base Ns Nd k1 u1) (by omega)
      (by omega)
    have e2 := slot_unique hy h2 hq (p' := base Ns Nd ky y + q - base Ns Nd k2 u2) (by omega)
      (by omega)
    exact ⟨⟨e1.1, e2.1⟩, e1.2.1, e2.2.1⟩

/-- Writing a block row by row is writing the block. -/
theorem rows_eq (h : ℕ) (D : NDMat) (r c w : ℕ) (g : ℕ → ℕ → ℝ) :
    (List.range h).foldl (fun D i => writeAt D (r + i, c) 1 w fun _ j => g i j) D
      = writeAt D (r, c) h w g := by
  induction h with
  | zero =>
    simp only [writeAt, NDMat.setBlock, List.range_zero, List.foldl_nil]
    cases D
    congr
    funext i j
    rw [if_neg (by omega)]
  | succ h ih =>
    rw [List.range_succ, List.foldl_append, ih]
    simp only [writeAt, NDMat.setBlock, List.foldl_cons, List.foldl_nil]
    congr 1
    funext i j
    by_cases h1 : c ≤ j ∧ j < c + w
    · by_cases h2 : r ≤ i ∧ i < r + h
      · rw [if_neg (by omega), if_pos (by omega), if_pos (by omega)]
      · by_cases h3 : i = r + h
        · rw [if_pos (by omega), if_pos (by omega)]
          congr 1; omega
        · rw [if_neg (by omega), if_neg (by omega), if_neg (by omega)]
    · rw [if_neg (by omega), if_neg (by omega), if_neg (by omega)]

/-- Writing two blocks in disjoint rows, row by row alternately, is writing both. -/
theorem rows2_eq (h : ℕ) (D : NDMat) (r c w r' c' w' : ℕ) (g g' : ℕ → ℕ → ℝ)
    (hd : r + h ≤ r') :
    (List.range h).foldl (fun D i =>
        writeAt (writeAt D (r + i, c) 1 w fun _ j => g i j) (r' + i, c') 1 w' fun _ j => g' i j) D
      = writeAt (writeAt D (r, c) h w g) (r', c') h w' g' := by
  induction h with
  | zero =>
    simp only [writeAt, NDMat.setBlock, List.range_zero, List.foldl_nil]
    cases D
    congr
    funext i j
    rw [if_neg (by omega), if_neg (by omega)]
  | succ h ih =>
    rw [List.range_succ, List.foldl_append, ih (by omega)]
    simp only [writeAt, NDMat.setBlock, List.foldl_cons, List.foldl_nil]
    congr 1
    funext i j
    by_cases a : r' ≤ i ∧ i < r' + h + 1 ∧ c' ≤ j ∧ j < c' + w'
    · rw [if_pos (c := r' ≤ i ∧ i < r' + (h + 1) ∧ c' ≤ j ∧ j < c' + w') (by omega)]
      by_cases b : i < r' + h
      · rw [if_neg (by omega), if_neg (by omega), if_pos (by omega)]
      · rw [if_pos (by omega)]; congr 1; omega
    · rw [if_neg (c := r' ≤ i ∧ i < r' + (h + 1) ∧ c' ≤ j ∧ j < c' + w') (by omega),
        if_neg (by omega)]
      by_cases b : r ≤ i ∧ i < r + h + 1 ∧ c ≤ j ∧ j < c + w
      · rw [if_pos (c := r ≤ i ∧ i < r + (h + 1) ∧ c ≤ j ∧ j < c + w) (by omega)]
        by_cases b' : i < r + h
        · rw [if_neg (by omega), if_neg (by omega), if_pos (by omega)]
        · rw [if_pos (by omega)]; congr 1; omega
      · rw [if_neg (c := r ≤ i ∧ i < r + (h + 1) ∧ c ≤ j ∧ j < c + w) (by omega),
          if_neg (by omega), if_neg (by omega), if_neg (by omega)]

/-- Writing a constant down a diagonal. -/
theorem diag_get (n : ℕ) (D : NDMat) (r c : ℕ) (v : ℝ) (i j : ℕ) :
    ((List.range n).foldl (fun D i => writeAt D (r + i, c + i) 1 1 fun _ _ => v) D).get i j
      = if r ≤ i ∧ i < r + n ∧ c ≤ j ∧ j < c + n ∧ i + c = j + r then v else D.get i j := by
  induction n with
  | zero => simp only [List.range_zero, List.foldl_nil]; rw [if_neg (by omega)]
  | succ n ih =>
    rw [List.range_succ, List.foldl_append]
    simp only [List.foldl_cons, List.foldl_nil]
    unfold writeAt at ih ⊢
    dsimp only at ih ⊢
    by_cases h : i = r + n ∧ j = c + n
    · rw [NDMat.setBlock_in _ _ (by omega) (by omega), if_pos (by omega)]
    · rw [NDMat.setBlock_out _ _ (by omega), ih]
      by_cases h2 : r ≤ i ∧ i < r + n ∧ c ≤ j ∧ j < c + n ∧ i + c = j + r
      · rw [if_pos h2, if_pos (by omega)]
      · rw [if_neg h2, if_neg (by omega)]

/-- Reading from a written block. -/
theorem writeAt_congr (D : NDMat) (rc : ℕ × ℕ) (h w : ℕ) (f g : ℕ → ℕ → ℝ)
    (e : ∀ i < h, ∀ j < w, f i j = g i j) : writeAt D rc h w f = writeAt D rc h w g := by
  simp only [writeAt, NDMat.setBlock]
  congr 1
  funext i j
  split_ifs with hc
  · exact e _ (by omega) _ (by omega)
  · rfl

theorem mem_pairs {n u v : ℕ} : (u, v) ∈ pairs n ↔ u ≤ v ∧ v < n := by
  simp only [pairs, List.mem_flatMap, List.mem_range, List.mem_map, List.mem_range'_1,
    Prod.mk.injEq]
  constructor
  · rintro ⟨a, ha, b, hb, rfl, rfl⟩; omega
  · rintro ⟨h1, h2⟩; exact ⟨u, by omega, v, by omega, rfl, rfl⟩

theorem symmetrise_symm (D : NDMat) (i j : ℕ) :
    (symmetrise D).get i j = (symmetrise D).get j i := by
  simp only [symmetrise]
  rcases lt_trichotomy i j with h | h | h
  · rw [if_pos (by omega), if_neg (by omega), if_neg (by omega), if_pos (by omega)]; simp
  · subst h; rfl
  · rw [if_neg (by omega), if_pos (by omega), if_pos (by omega), if_neg (by omega)]; simp

theorem symmetrise_upper (D : NDMat) {i j : ℕ} (h : i ≤ j) :
    (symmetrise D).get i j = D.get i j := by
  simp only [symmetrise]
  rw [if_pos h, if_neg (by omega), add_zero]

end SD
