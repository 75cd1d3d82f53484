import Verif.Model.Blocks
import Verif.Model.Minfinity
import Verif.Lemmas.Layout
import Verif.Lemmas.Minfinity

/-!
# Tiling of the grand matrix by the blocks
-/

set_option autoImplicit false

namespace SD

/-- The entry `(i, j)` lies in the block. -/
def Block.covers (b : Block) (i j : ℕ) : Prop :=
  b.corner.1 ≤ i ∧ i < b.corner.1 + b.h ∧ b.corner.2 ≤ j ∧ j < b.corner.2 + b.w

/-- The block of two row groups. -/
def kBlock (Ns Nd : ℕ) (k1 : Kind) (u1 : ℕ) (k2 : Kind) (u2 : ℕ) : Block :=
  ⟨(base Ns Nd k1 u1, base Ns Nd k2 u2), k1.dim, k2.dim⟩

theorem mem_blocksOf {Ns Nd u v : ℕ} (huv : u ≤ v) (hv : v < Ns + 2 * Nd) (b : Block) :
    b ∈ blocksOf Ns Nd u v ↔ ∃ k1 x k2 y, b = kBlock Ns Nd k1 x k2 y ∧ owns Ns Nd k1 x ∧
      owns Ns Nd k2 y ∧ before k1 x k2 y ∧ touches u v x y := by
  unfold blocksOf
  simp only [is_sphere, is_dumbbell_bead_1, is_dumbbell_bead_2, Bool.and_eq_true, decide_eq_true_eq]
  unfold touches
  rcases Nat.lt_or_ge u Ns with h1 | h1
  · rcases Nat.lt_or_ge v Ns with h2 | h2
    · rw [if_pos (by omega)]
      simp only [List.mem_cons, List.not_mem_nil, or_false]
      constructor
      · rintro (rfl | rfl | rfl | rfl | rfl | rfl | rfl | rfl | rfl)
        · exact ⟨.F, u, .F, v, rfl, h1, h2, huv, by omega⟩
        · exact ⟨.F, u, .T, v, rfl, h1, h2, trivial, by omega⟩
        · exact ⟨.T, u, .T, v, rfl, h1, h2, huv, by omega⟩
        · exact ⟨.F, u, .S, v, rfl, h1, h2, trivial, by omega⟩
        · exact ⟨.T, u, .S, v, rfl, h1, h2, trivial, by omega⟩
        · exact ⟨.S, u, .S, v, rfl, h1, h2, huv, by omega⟩
        · exact ⟨.F, v, .T, u, rfl, h2, h1, trivial, by omega⟩
        · exact ⟨.F, v, .S, u, rfl, h2, h1, trivial, by omega⟩
        · exact ⟨.T, v, .S, u, rfl, h2, h1, trivial, by omega⟩
      · rintro ⟨k1, x, k2, y, rfl, o1, o2, hb, ht⟩
        cases k1 <;> cases k2 <;> simp only [owns, before] at o1 o2 hb <;>
          (try (exfalso; omega)) <;>
          rcases ht with ⟨rfl, rfl⟩ | ⟨rfl, rfl⟩ <;>
          first
            | (simp [kBlock, base, Kind.dim, submatrix_coords_tuple]; done)
            | (have h3 : x = y := by omega
               subst h3; simp [kBlock, base, Kind.dim, submatrix_coords_tuple])
    · rcases Nat.lt_or_ge v (Ns + Nd) with h3 | h3
      · rw [if_neg (by omega), if_pos (by omega)]
        simp only [List.mem_cons, List.not_mem_nil, or_false]
        constructor
        · rintro (rfl | rfl | rfl)
          · exact ⟨.F, u, .B1, v, rfl, h1, ⟨h2, h3⟩, trivial, by omega⟩
          · exact ⟨.T, u, .B1, v, rfl, h1, ⟨h2, h3⟩, trivial, by omega⟩
          · exact ⟨.S, u, .B1, v, rfl, h1, ⟨h2, h3⟩, trivial, by omega⟩
        · rintro ⟨k1, x, k2, y, rfl, o1, o2, hb, ht⟩
          cases k1 <;> cases k2 <;> simp only [owns, before] at o1 o2 hb <;>
            (try (exfalso; omega)) <;>
            rcases ht with ⟨rfl, rfl⟩ | ⟨rfl, rfl⟩ <;>
            first
              | (exfalso; omega)
              | (simp [kBlock, base, Kind.dim, submatrix_coords_tuple]; done)
      · rw [if_neg (by omega), if_neg (by omega), if_pos (by omega)]
        simp only [List.mem_cons, List.not_mem_nil, or_false]
        constructor
        · rintro (rfl | rfl | rfl)
          · exact ⟨.F, u, .B2, v, rfl, h1, ⟨h3, hv⟩, trivial, by omega⟩
          · exact ⟨.T, u, .B2, v, rfl, h1, ⟨h3, hv⟩, trivial, by omega⟩
          · exact ⟨.S, u, .B2, v, rfl, h1, ⟨h3, hv⟩, trivial, by omega⟩
        · rintro ⟨k1, x, k2, y, rfl, o1, o2, hb, ht⟩
          cases k1 <;> cases k2 <;> simp only [owns, before] at o1 o2 hb <;>
            (try (exfalso; omega)) <;>
            rcases ht with ⟨rfl, rfl⟩ | ⟨rfl, rfl⟩ <;>
            first
              | (exfalso; omega)
              | (simp [kBlock, base, Kind.dim, submatrix_coords_tuple]; done)
  · rw [if_neg (by omega), if_neg (by omega), if_neg (by omega)]
    rcases Nat.lt_or_ge u (Ns + Nd) with h2 | h2
    · rcases Nat.lt_or_ge v (Ns + Nd) with h3 | h3
      · rw [if_pos (by omega)]
        simp only [List.mem_cons, List.not_mem_nil, or_false]
        constructor
        · rintro rfl
          exact ⟨.B1, u, .B1, v, rfl, ⟨h1, h2⟩, ⟨by omega, h3⟩, huv, by omega⟩
        · rintro ⟨k1, x, k2, y, rfl, o1, o2, hb, ht⟩
          cases k1 <;> cases k2 <;> simp only [owns, before] at o1 o2 hb <;>
            (try (exfalso; omega)) <;>
            rcases ht with ⟨rfl, rfl⟩ | ⟨rfl, rfl⟩ <;>
            first
              | (simp [kBlock, base, Kind.dim, submatrix_coords_tuple]; done)
              | (have h3 : x = y := by omega
                 subst h3; simp [kBlock, base, Kind.dim, submatrix_coords_tuple])
      · rw [if_neg (by omega), if_pos (by omega)]
        simp only [List.mem_cons, List.not_mem_nil, or_false]
        constructor
        · rintro rfl
          exact ⟨.B1, u, .B2, v, rfl, ⟨h1, h2⟩, ⟨h3, hv⟩, trivial, by omega⟩
        · rintro ⟨k1, x, k2, y, rfl, o1, o2, hb, ht⟩
          cases k1 <;> cases k2 <;> simp only [owns, before] at o1 o2 hb <;>
            (try (exfalso; omega)) <;>
            rcases ht with ⟨rfl, rfl⟩ | ⟨rfl, rfl⟩ <;>
            first
              | (exfalso; omega)
              | (simp [kBlock, base, Kind.dim, submatrix_coords_tuple]; done)
    · rw [if_neg (by omega), if_neg (by omega)]
      simp only [List.mem_cons, List.not_mem_nil, or_false]
      constructor
      · rintro rfl
        exact ⟨.B2, u, .B2, v, rfl, ⟨h2, by omega⟩, ⟨by omega, hv⟩, huv, by omega⟩
      · rintro ⟨k1, x, k2, y, rfl, o1, o2, hb, ht⟩
        cases k1 <;> cases k2 <;> simp only [owns, before] at o1 o2 hb <;>
          (try (exfalso; omega)) <;>
          rcases ht with ⟨rfl, rfl⟩ | ⟨rfl, rfl⟩ <;>
          first
            | (simp [kBlock, base, Kind.dim, submatrix_coords_tuple]; done)
            | (have h3 : x = y := by omega
               subst h3; simp [kBlock, base, Kind.dim, submatrix_coords_tuple])

theorem kBlock_covers {Ns Nd : ℕ} {k1 k2 kx ky : Kind} {u1 u2 x y p q : ℕ}
    (h1 : owns Ns Nd k1 u1) (h2 : owns Ns Nd k2 u2) (hx : owns Ns Nd kx x) (hy : owns Ns Nd ky y)
    (hp : p < kx.dim) (hq : q < ky.dim) :
    (kBlock Ns Nd k1 u1 k2 u2).covers (base Ns Nd kx x + p) (base Ns Nd ky y + q) ↔
      (kx = k1 ∧ x = u1) ∧ ky = k2 ∧ y = u2 := by
  unfold Block.covers kBlock
  dsimp only
  constructor
  · rintro ⟨a1, a2, a3, a4⟩
    have e1 := slot_unique hx h1 hp (p' := base Ns Nd kx x + p - base Ns Nd k1 u1) (by omega)
      (by omega)
    have e2 := slot_unique hy h2 hq (p' := base Ns Nd ky y + q - base Ns Nd k2 u2) (by omega)
      (by omega)
    exact ⟨⟨e1.1, e1.2.1⟩, e2.1, e2.2.1⟩
  · rintro ⟨⟨rfl, rfl⟩, rfl, rfl⟩
    omega

theorem covers_lt {Ns Nd : ℕ} {k1 k2 : Kind} {u1 u2 i j : ℕ} (h1 : owns Ns Nd k1 u1)
    (h2 : owns Ns Nd k2 u2) (h : (kBlock Ns Nd k1 u1 k2 u2).covers i j) :
    i < 11 * Ns + 6 * Nd ∧ j < 11 * Ns + 6 * Nd := by
  unfold Block.covers kBlock at h
  dsimp only at h
  have e1 := slot_lt h1 (p := i - base Ns Nd k1 u1) (by omega)
  have e2 := slot_lt h2 (p := j - base Ns Nd k2 u2) (by omega)
  omega

/-- The pairs of the loop that write an entry on or above the diagonal, and the blocks. -/
theorem tiling {Ns Nd i j : ℕ} (hij : i ≤ j) (hj : j < 11 * Ns + 6 * Nd) :
    ∃! ub : (ℕ × ℕ) × Block, ub.1 ∈ pairs (Ns + 2 * Nd) ∧ ub.2 ∈ blocksOf Ns Nd ub.1.1 ub.1.2 ∧
      ub.2.covers i j := by
  obtain ⟨kx, x, p, ox, hp, rfl⟩ := slot_exists (lt_of_le_of_lt hij hj)
  obtain ⟨ky, y, q, oy, hq, rfl⟩ := slot_exists hj
  have hb := before_le ox oy hp hq hij
  have hxn := owns_lt ox
  have hyn := owns_lt oy
  refine ⟨((min x y, max x y), kBlock Ns Nd kx x ky y), ⟨?_, ?_, ?_⟩, ?_⟩
  · exact mem_pairs.mpr ⟨min_le_max, max_lt hxn hyn⟩
  · rw [mem_blocksOf min_le_max (max_lt hxn hyn)]
    refine ⟨kx, x, ky, y, rfl, ox, oy, hb, ?_⟩
    unfold touches; omega
  · rw [kBlock_covers ox oy ox oy hp hq]; simp
  · rintro ⟨⟨u, v⟩, b⟩ ⟨h1, h2, h3⟩
    rw [mem_pairs] at h1
    dsimp only at h1 h2 h3
    rw [mem_blocksOf h1.1 h1.2] at h2
    obtain ⟨k1, x', k2, y', rfl, o1, o2, hb', ht⟩ := h2
    rw [kBlock_covers o1 o2 ox oy hp hq] at h3
    obtain ⟨⟨rfl, rfl⟩, rfl, rfl⟩ := h3
    unfold touches at ht
    simp only [Prod.mk.injEq, and_true]
    omega

end SD
