import Verif.Lemmas.Blocks

/-!
# C04: every entry belongs to exactly one block of exactly one pair
-/

set_option autoImplicit false

namespace SD

/-- **C04**. Every entry on or above the diagonal lies in exactly one of the blocks assigned during the
loop over all pairs `u ≤ v`: no interaction is dropped, and none is overwritten by another pair or by
another block of the same pair (the blocks of a sphere with itself that coincide count once). -/
theorem C04_tiling {Ns Nd i j : ℕ} (hij : i ≤ j) (hj : j < 11 * Ns + 6 * Nd) :
    ∃! ub : (ℕ × ℕ) × Block, ub.1 ∈ pairs (Ns + 2 * Nd) ∧ ub.2 ∈ blocksOf Ns Nd ub.1.1 ub.1.2 ∧
      ub.2.corner.1 ≤ i ∧ i < ub.2.corner.1 + ub.2.h ∧
      ub.2.corner.2 ≤ j ∧ j < ub.2.corner.2 + ub.2.w :=
  tiling hij hj

/-- **C04** (range). No block reaches outside the matrix; blocks of distinct particles lie strictly above
the diagonal, so the final symmetrisation loses nothing. -/
theorem C04_inside {Ns Nd u v i j : ℕ} (huv : u ≤ v) (hv : v < Ns + 2 * Nd) {b : Block}
    (hb : b ∈ blocksOf Ns Nd u v) (hi : b.corner.1 ≤ i ∧ i < b.corner.1 + b.h)
    (hj : b.corner.2 ≤ j ∧ j < b.corner.2 + b.w) :
    i < 11 * Ns + 6 * Nd ∧ j < 11 * Ns + 6 * Nd ∧ (u < v → i < j) := by
  rw [mem_blocksOf huv hv] at hb
  obtain ⟨k1, x, k2, y, rfl, o1, o2, hbf, ht⟩ := hb
  obtain ⟨h1, h2⟩ := covers_lt o1 o2 ⟨hi.1, hi.2, hj.1, hj.2⟩
  refine ⟨h1, h2, fun hlt => ?_⟩
  unfold kBlock at hi hj
  unfold touches at ht
  dsimp only at hi hj
  cases k1 <;> cases k2 <;> simp only [owns, before, Kind.dim, base] at * <;> omega

/-- **C04** (the loop). The far-field loop body for a pair changes no entry outside the blocks of that
pair on or above the diagonal. -/
theorem C04_only_blocks (P : PosData) (c mu : ℝ) (bb : Bool) (D : NDMat) {u v i j : ℕ} (huv : u ≤ v)
    (hv : v < P.Ns + 2 * P.Nd) (hij : i ≤ j) (hj : j < 11 * P.Ns + 6 * P.Nd)
    (hout : ∀ b ∈ blocksOf P.Ns P.Nd u v, ¬ (b.corner.1 ≤ i ∧ i < b.corner.1 + b.h ∧
      b.corner.2 ≤ j ∧ j < b.corner.2 + b.w)) :
    (minfStep P c mu bb D (u, v)).get i j = D.get i j := by
  obtain ⟨kx, x, p, ox, hp, rfl⟩ := slot_exists (lt_of_le_of_lt hij hj)
  obtain ⟨ky, y, q, oy, hq, rfl⟩ := slot_exists hj
  have hb := before_le ox oy hp hq hij
  rw [minfStep_get P c mu bb D huv hv ox oy hp hq hb, if_neg]
  rintro ⟨ht, -⟩
  refine hout (kBlock P.Ns P.Nd kx x ky y) ?_ ?_
  · rw [mem_blocksOf huv hv]
    exact ⟨kx, x, ky, y, rfl, ox, oy, hb, ht⟩
  · exact (kBlock_covers ox oy ox oy hp hq).mpr ⟨⟨rfl, rfl⟩, rfl, rfl⟩

/-- With 2 spheres and 1 dumbbell, the entry coupling the stresslet of sphere 1 to the force on the second
bead of the dumbbell. -/
example := C04_tiling (Ns := 2) (Nd := 1) (i := 18) (j := 26) (by decide) (by decide)
example : (⟨(17, 25), 5, 3⟩ : Block) ∈ blocksOf 2 1 1 3 := by
  simp [blocksOf, is_sphere, is_dumbbell_bead_1, submatrix_coords_tuple]
example := C04_inside (Ns := 2) (Nd := 1) (u := 1) (v := 3) (i := 18) (j := 26)
  (b := ⟨(17, 25), 5, 3⟩) (by decide) (by decide)
  (by simp [blocksOf, is_sphere, is_dumbbell_bead_1, submatrix_coords_tuple]) (by decide) (by decide)

end SD
