import Verif.Lemmas.NearTensor
import Verif.Lemmas.MinfEntry
import Verif.Lemmas.System

/-!
# Every entry of the near-field resistance matrix
-/

set_option autoImplicit false

namespace SD

open Spec

/-- The scalar component number `p` of row group `k`. -/
def compOf (k : Kind) (p : ℕ) : Comp :=
  match k with
  | .T => .t (f3 p)
  | .S => .s (f5 p)
  | _ => .f (f3 p)

theorem compOf_kind (Ns Nd u : ℕ) (c : Comp) : compOf (kindOf Ns Nd u c) (idxOf c) = c := by
  have i3 : ∀ i : Fin 3, f3 (i : ℕ) = i := fun i => Fin.ofNat_val_eq_self i
  have i5 : ∀ i : Fin 5, f5 (i : ℕ) = i := fun i => Fin.ofNat_val_eq_self i
  cases c with
  | f i => simp only [kindOf]; split_ifs <;> simp [compOf, idxOf, i3]
  | t i => simp [kindOf, compOf, idxOf, i3]
  | s p => simp [kindOf, compOf, idxOf, i5]

/-! ## Chains of writes -/

section Chain
variable {Ns Nd : ℕ} (V : Kind → ℕ → Kind → ℕ → ℕ → ℕ → ℝ)

theorem shortcut_chain (X : NDMat) {u v : ℕ} (hu : u < Ns) (hv : v < Ns)
    (h1 : ∀ i < 3, ∀ j < 3, X.get (base Ns Nd .F u + i) (base Ns Nd .T v + j) = -V .F v .T u i j)
    (h2 : ∀ i < 3, ∀ j < 5, X.get (base Ns Nd .F u + i) (base Ns Nd .S v + j) = -V .F v .S u i j)
    (h3 : ∀ i < 3, ∀ j < 5, X.get (base Ns Nd .T u + i) (base Ns Nd .S v + j) = V .T v .S u i j) :
    (let D := writeAt X (base Ns Nd .F v, base Ns Nd .T u) 3 3 fun i j =>
      -X.get (base Ns Nd .F u + i) (base Ns Nd .T v + j)
     let D := writeAt D (base Ns Nd .F v, base Ns Nd .S u) 3 5 fun i j =>
      -D.get (base Ns Nd .F u + i) (base Ns Nd .S v + j)
     writeAt D (base Ns Nd .T v, base Ns Nd .S u) 3 5 fun i j =>
      D.get (base Ns Nd .T u + i) (base Ns Nd .S v + j))
    = writeAt (writeAt (writeAt X (base Ns Nd .F v, base Ns Nd .T u) 3 3
        (V .F v .T u)) (base Ns Nd .F v, base Ns Nd .S u) 3 5
        (V .F v .S u)) (base Ns Nd .T v, base Ns Nd .S u) 3 5
        (V .T v .S u) := by
  have e1 : writeAt X (base Ns Nd .F v, base Ns Nd .T u) 3 3 (fun i j =>
      -X.get (base Ns Nd .F u + i) (base Ns Nd .T v + j))
      = writeAt X (base Ns Nd .F v, base Ns Nd .T u) 3 3 (V .F v .T u) := by
    apply writeAt_congr
    intro i hi j hj
    rw [h1 i hi j hj, neg_neg]
  dsimp only
  rw [e1]
  generalize hY : writeAt X (base Ns Nd .F v, base Ns Nd .T u) 3 3 (V .F v .T u) = Y
  have e2 : writeAt Y (base Ns Nd .F v, base Ns Nd .S u) 3 5 (fun i j =>
      -Y.get (base Ns Nd .F u + i) (base Ns Nd .S v + j))
      = writeAt Y (base Ns Nd .F v, base Ns Nd .S u) 3 5 (V .F v .S u) := by
    apply writeAt_congr
    intro i hi j hj
    rw [← hY, writeAt_get (k1 := .F) (u1 := v) (k2 := .T) (u2 := u) (kx := .F) (ky := .S) hv hu hu hv
      hi hj X _ 3 3 rfl rfl _ rfl]
    rw [if_neg (by simp), h2 i hi j hj, neg_neg]
  rw [e2]
  apply writeAt_congr
  intro i hi j hj
  rw [writeAt_get (k1 := .F) (u1 := v) (k2 := .S) (u2 := u) (kx := .T) (ky := .S) hv hu hu hv
      hi hj _ _ 3 5 rfl rfl _ rfl, if_neg (by simp), ← hY]
  rw [writeAt_get (k1 := .F) (u1 := v) (k2 := .T) (u2 := u) (kx := .T) (ky := .S) hv hu hu hv
      hi hj X _ 3 3 rfl rfl _ rfl, if_neg (by simp), h3 i hi j hj]

variable {kx ky : Kind} {x y p q : ℕ} (hx : owns Ns Nd kx x) (hy : owns Ns Nd ky y) (hp : p < kx.dim)
  (hq : q < ky.dim) (hb : before kx x ky y)
include hx hy hp hq hb

open Classical in
/-- The nine blocks of two different spheres. -/
theorem pair_chain (D : NDMat) {u v : ℕ} (huv : u < v) (hv : v < Ns) :
    (let B := base Ns Nd
      let D := writeAt D (B .F u, B .F v) 3 3 (V .F u .F v)
      let D := writeAt D (B .F u, B .T v) 3 3 (V .F u .T v)
      let D := writeAt D (B .T u, B .T v) 3 3 (V .T u .T v)
      let D := writeAt (writeAt D (B .F u, B .S v) 3 5 (V .F u .S v)) (B .T u, B .S v) 3 5 (V .T u .S v)
      let D := writeAt D (B .S u, B .S v) 5 5 (V .S u .S v)
      let D := writeAt D (B .F v, B .T u) 3 3 (V .F v .T u)
      let D := writeAt D (B .F v, B .S u) 3 5 (V .F v .S u)
      writeAt D (B .T v, B .S u) 3 5 (V .T v .S u)).get (base Ns Nd kx x + p) (base Ns Nd ky y + q)
    = if touches u v x y then V kx x ky y p q
      else D.get (base Ns Nd kx x + p) (base Ns Nd ky y + q) := by
  have hu : u < Ns := huv.trans hv
  have oFu : owns Ns Nd .F u := hu
  have oFv : owns Ns Nd .F v := hv
  have oTu : owns Ns Nd .T u := hu
  have oTv : owns Ns Nd .T v := hv
  have oSu : owns Ns Nd .S u := hu
  have oSv : owns Ns Nd .S v := hv
  dsimp only
  rw [writeAt_get oTv oSu hx hy hp hq _ _ 3 5 rfl rfl _ rfl,
    writeAt_get oFv oSu hx hy hp hq _ _ 3 5 rfl rfl _ rfl,
    writeAt_get oFv oTu hx hy hp hq _ _ 3 3 rfl rfl _ rfl,
    writeAt_get oSu oSv hx hy hp hq _ _ 5 5 rfl rfl _ rfl,
    writeAt_get oTu oSv hx hy hp hq _ _ 3 5 rfl rfl _ rfl,
    writeAt_get oFu oSv hx hy hp hq _ _ 3 5 rfl rfl _ rfl,
    writeAt_get oTu oTv hx hy hp hq _ _ 3 3 rfl rfl _ rfl,
    writeAt_get oFu oTv hx hy hp hq _ _ 3 3 rfl rfl _ rfl,
    writeAt_get oFu oFv hx hy hp hq _ _ 3 3 rfl rfl _ rfl]
  unfold touches
  have key : ∀ (A : Prop) (V E L : ℝ), (A → L = V) → (¬ A → L = E) → L = if A then V else E := by
    intro A V E L h1 h2
    split_ifs with h
    · exact h1 h
    · exact h2 h
  apply key
  · intro hA
    cases kx <;> cases ky <;>
      simp only [reduceCtorEq, true_and, and_true, false_and, and_false, if_false, before, owns]
        at hb hx hy ⊢
    case S.S =>
      have h2 : x = u ∧ y = v := by omega
      obtain ⟨rfl, rfl⟩ := h2
      simp
    case F.F =>
      have h2 : x = u ∧ y = v := by omega
      obtain ⟨rfl, rfl⟩ := h2
      simp
    case T.T =>
      have h2 : x = u ∧ y = v := by omega
      obtain ⟨rfl, rfl⟩ := h2
      simp
    case F.T =>
      rcases hA with ⟨rfl, rfl⟩ | ⟨rfl, rfl⟩
      · rw [if_neg (by omega)]; simp
      · simp
    case F.S =>
      rcases hA with ⟨rfl, rfl⟩ | ⟨rfl, rfl⟩
      · rw [if_neg (by omega)]; simp
      · simp
    case T.S =>
      rcases hA with ⟨rfl, rfl⟩ | ⟨rfl, rfl⟩
      · rw [if_neg (by omega)]; simp
      · simp
    all_goals (exfalso; omega)
  · intro hA
    have h1 : ¬ (x = u ∧ y = v) := fun h => hA (Or.inl h)
    have h2 : ¬ (x = v ∧ y = u) := fun h => hA (Or.inr h)
    simp only [h1, h2, and_false, if_false]

open Classical in
/-- The six blocks of a sphere with itself. -/
theorem self_chain (D : NDMat) {u : ℕ} (hu : u < Ns) :
    (let B := base Ns Nd
      let D := writeAt D (B .F u, B .F u) 3 3 (V .F u .F u)
      let D := writeAt D (B .F u, B .T u) 3 3 (V .F u .T u)
      let D := writeAt D (B .T u, B .T u) 3 3 (V .T u .T u)
      let D := writeAt D (B .F u, B .S u) 3 5 (V .F u .S u)
      let D := writeAt D (B .T u, B .S u) 3 5 (V .T u .S u)
      writeAt D (B .S u, B .S u) 5 5 (V .S u .S u)).get (base Ns Nd kx x + p) (base Ns Nd ky y + q)
    = if touches u u x y then V kx x ky y p q
      else D.get (base Ns Nd kx x + p) (base Ns Nd ky y + q) := by
  have oFu : owns Ns Nd .F u := hu
  have oTu : owns Ns Nd .T u := hu
  have oSu : owns Ns Nd .S u := hu
  dsimp only
  rw [writeAt_get oSu oSu hx hy hp hq _ _ 5 5 rfl rfl _ rfl,
    writeAt_get oTu oSu hx hy hp hq _ _ 3 5 rfl rfl _ rfl,
    writeAt_get oFu oSu hx hy hp hq _ _ 3 5 rfl rfl _ rfl,
    writeAt_get oTu oTu hx hy hp hq _ _ 3 3 rfl rfl _ rfl,
    writeAt_get oFu oTu hx hy hp hq _ _ 3 3 rfl rfl _ rfl,
    writeAt_get oFu oFu hx hy hp hq _ _ 3 3 rfl rfl _ rfl]
  unfold touches
  by_cases hA : x = u ∧ y = u
  · rw [if_pos (Or.inl hA)]
    obtain ⟨rfl, rfl⟩ := hA
    cases kx <;> cases ky <;>
      simp only [reduceCtorEq, and_true, and_false, if_false, if_true, before, owns,
        and_self] at hb hx hy ⊢
    all_goals (exfalso; omega)
  · simp only [hA, and_false, if_false, or_self]

open Classical in
/-- The three blocks of a sphere and a dumbbell bead. -/
theorem bead_chain (D : NDMat) {u v : ℕ} {kv : Kind} (hk : kv = .B1 ∨ kv = .B2) (hu : u < Ns)
    (hv : owns Ns Nd kv v) :
    (writeAt (writeAt (writeAt D (base Ns Nd .F u, base Ns Nd kv v) 3 3 (V .F u kv v))
      (base Ns Nd .T u, base Ns Nd kv v) 3 3 (V .T u kv v))
      (base Ns Nd .S u, base Ns Nd kv v) 5 3 (V .S u kv v)).get
        (base Ns Nd kx x + p) (base Ns Nd ky y + q)
    = if touches u v x y then V kx x ky y p q
      else D.get (base Ns Nd kx x + p) (base Ns Nd ky y + q) := by
  have oFu : owns Ns Nd .F u := hu
  have oTu : owns Ns Nd .T u := hu
  have oSu : owns Ns Nd .S u := hu
  have hd : 3 = kv.dim := by rcases hk with rfl | rfl <;> rfl
  rw [writeAt_get oSu hv hx hy hp hq _ _ 5 3 rfl hd _ rfl,
    writeAt_get oTu hv hx hy hp hq _ _ 3 3 rfl hd _ rfl,
    writeAt_get oFu hv hx hy hp hq _ _ 3 3 rfl hd _ rfl]
  by_cases hA : touches u v x y
  · rw [if_pos hA]
    unfold touches at hA
    rcases hk with rfl | rfl <;> cases kx <;> cases ky <;>
      simp only [owns, before] at hb hx hy hv <;>
      first
        | (exfalso; omega)
        | (have h : x = u ∧ y = v := by omega
           obtain ⟨rfl, rfl⟩ := h
           simp)
  · rw [if_neg hA]
    have h1 : ¬ (x = u ∧ y = v) := fun h => hA (Or.inl h)
    simp only [h1, and_false, if_false]

open Classical in
/-- The block of two dumbbell beads. -/
theorem beads_chain (D : NDMat) {u v : ℕ} {ku kv : Kind}
    (hk : (ku = .B1 ∧ kv = .B1) ∨ (ku = .B1 ∧ kv = .B2) ∨ (ku = .B2 ∧ kv = .B2)) (huv : u ≤ v)
    (hu : owns Ns Nd ku u) (hv : owns Ns Nd kv v) :
    (writeAt D (base Ns Nd ku u, base Ns Nd kv v) 3 3 (V ku u kv v)).get
        (base Ns Nd kx x + p) (base Ns Nd ky y + q)
    = if touches u v x y then V kx x ky y p q
      else D.get (base Ns Nd kx x + p) (base Ns Nd ky y + q) := by
  have hd1 : 3 = ku.dim := by rcases hk with ⟨rfl, rfl⟩ | ⟨rfl, rfl⟩ | ⟨rfl, rfl⟩ <;> rfl
  have hd : 3 = kv.dim := by rcases hk with ⟨rfl, rfl⟩ | ⟨rfl, rfl⟩ | ⟨rfl, rfl⟩ <;> rfl
  rw [writeAt_get hu hv hx hy hp hq _ _ 3 3 hd1 hd _ rfl]
  by_cases hA : touches u v x y
  · rw [if_pos hA]
    unfold touches at hA
    rcases hk with ⟨rfl, rfl⟩ | ⟨rfl, rfl⟩ | ⟨rfl, rfl⟩ <;> cases kx <;> cases ky <;>
      simp only [owns, before] at hb hx hy hv hu <;>
      first
        | (exfalso; omega)
        | (have h : x = u ∧ y = v := by omega
           obtain ⟨rfl, rfl⟩ := h
           simp)
  · rw [if_neg hA, if_neg]
    rintro ⟨-, h⟩
    exact hA (Or.inl h)

end Chain

end SD
