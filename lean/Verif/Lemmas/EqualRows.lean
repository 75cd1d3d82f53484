import Verif.Props.NearDissipation
import Verif.Model.ShippedTable
import Mathlib.Tactic.IntervalCases
import Mathlib.Tactic.Ring

/-!
# Rows of the table for spheres of equal size

For equal spheres the four kinds of motion split further into those in which the two spheres move alike and those in
which they move oppositely; each is a quadratic form in at most three numbers.
-/

set_option autoImplicit false

namespace SD

open Spec Near

/-- A quadratic form in two numbers. -/
def Quad2 {R : Type} [CommRing R] [LT R] [LE R] (A B C : R) : Prop := 0 < A ∧ B * B ≤ 4 * A * C

theorem Quad2.nonneg {A B C : ℝ} (h : Quad2 A B C) (x y : ℝ) : 0 ≤ A * x ^ 2 + B * (x * y) + C * y ^ 2 := by
  obtain ⟨h1, h2⟩ := h
  have : 0 ≤ 4 * A * (A * x ^ 2 + B * (x * y) + C * y ^ 2) := by
    nlinarith [sq_nonneg (2 * A * x + B * y), mul_nonneg (sub_nonneg.mpr h2) (sq_nonneg y)]
  exact nonneg_of_mul_nonneg_right this (by linarith)

/-- A quadratic form in three numbers. -/
def Quad3 {R : Type} [CommRing R] [LT R] [LE R] (A B D G H M : R) : Prop :=
  0 < A ∧ Quad2 (4 * A * D - B * B) (4 * A * H - 2 * B * G) (4 * A * M - G * G)

theorem Quad3.nonneg {A B D G H M : ℝ} (h : Quad3 A B D G H M) (p q s : ℝ) :
    0 ≤ A * p ^ 2 + B * (p * q) + D * q ^ 2 + G * (p * s) + H * (q * s) + M * s ^ 2 := by
  have h2 := h.2.nonneg q s
  have : 0 ≤ 4 * A * (A * p ^ 2 + B * (p * q) + D * q ^ 2 + G * (p * s) + H * (q * s) + M * s ^ 2) := by
    have e : 4 * A * (A * p ^ 2 + B * (p * q) + D * q ^ 2 + G * (p * s) + H * (q * s) + M * s ^ 2)
      = (2 * A * p + B * q + G * s) ^ 2 + ((4 * A * D - B * B) * q ^ 2 + (4 * A * H - 2 * B * G) * (q * s)
        + (4 * A * M - G * G) * s ^ 2) := by ring
    rw [e]
    exact add_nonneg (sq_nonneg _) h2
  exact nonneg_of_mul_nonneg_right this (by have := h.1; linarith)

/-- The test for one sign, with sums `p` and differences `q` of the scalars. -/
def ModeOk {R : Type} [CommRing R] [LT R] [LE R] (p q : ℕ → R) : Prop :=
  Quad2 (3 * p 0) (4 * p 5) (5 * q 8) ∧ 0 ≤ p 3 ∧ 0 ≤ p 10 ∧
    Quad3 (9 * p 1) (12 * p 2) (12 * q 4) (24 * p 6) (-(48 * q 7)) (20 * q 9)

/-- The test of a row for equal spheres. -/
def EqualOk {R : Type} [CommRing R] [LT R] [LE R] (z y : ℕ → R) : Prop :=
  ModeOk (fun k => z k + y k) (fun k => z k - y k) ∧ ModeOk (fun k => z k - y k) (fun k => z k + y k)

instance (A B C : ℤ) : Decidable (Quad2 A B C) := by unfold Quad2; infer_instance
instance (A B D G H M : ℤ) : Decidable (Quad3 A B D G H M) := by unfold Quad3; infer_instance
instance (p q : ℕ → ℤ) : Decidable (ModeOk p q) := by unfold ModeOk; infer_instance
instance (z y : ℕ → ℤ) : Decidable (EqualOk z y) := by unfold EqualOk; infer_instance

theorem Quad2.scale {A B C c : ℝ} (hc : 0 < c) (h : Quad2 A B C) : Quad2 (c * A) (c * B) (c * C) :=
  ⟨mul_pos hc h.1, by nlinarith [mul_le_mul_of_nonneg_left h.2 (mul_pos hc hc).le]⟩

theorem Quad3.scale {A B D G H M c : ℝ} (hc : 0 < c) (h : Quad3 A B D G H M) :
    Quad3 (c * A) (c * B) (c * D) (c * G) (c * H) (c * M) := by
  refine ⟨mul_pos hc h.1, ?_⟩
  have := h.2.scale (mul_pos hc hc)
  convert this using 1 <;> ring

theorem ModeOk.scale {p q : ℕ → ℝ} {c : ℝ} (hc : 0 < c) (h : ModeOk p q) :
    ModeOk (fun k => c * p k) (fun k => c * q k) := by
  obtain ⟨h1, h2, h3, h4⟩ := h
  refine ⟨?_, mul_nonneg hc.le h2, mul_nonneg hc.le h3, ?_⟩
  · convert h1.scale hc using 1 <;> ring
  · convert h4.scale hc using 1 <;> ring

theorem EqualOk.scale {z y : ℕ → ℝ} {c : ℝ} (hc : 0 < c) (h : EqualOk z y) :
    EqualOk (fun k => c * z k) (fun k => c * y k) := by
  refine ⟨?_, ?_⟩
  · convert h.1.scale hc using 2 <;> ring
  · convert h.2.scale hc using 2 <;> ring

theorem EqualOk.cast {z y : ℕ → ℤ} (h : EqualOk z y) : EqualOk (fun k => (z k : ℝ)) (fun k => (y k : ℝ)) := by
  simp only [EqualOk, ModeOk, Quad3, Quad2] at h ⊢
  exact_mod_cast h

/-- Scalars from a list of numbers. -/
def scalOf (z : ℕ → ℝ) : Scalars := ⟨z 0, z 1, z 2, z 3, z 4, z 5, z 6, z 7, z 8, z 9, z 10⟩

/-- A row that passes the test does not feed energy into equal spheres. -/
theorem EqualOk.dissipative {z y : ℕ → ℝ} (h : EqualOk z y) {a : ℝ} (ha : 0 < a) :
    Dissipative (scalOf z) (scalOf z) (scalOf y) (scalOf y) a a := by
  obtain ⟨⟨a1, c1, m1, s1⟩, a2, c2, m2, s2⟩ := h
  have hpi := Real.pi_pos
  refine ⟨fun u1 u2 e1 e2 => ?_, fun o1 o2 => ?_, fun p1 p2 q1 q2 t1 t2 => ?_, fun h1 h2 => ?_⟩
  · have k1 := a1.nonneg (u1 + u2) (a * (e1 - e2))
    have k2 := a2.nonneg (u1 - u2) (a * (e1 + e2))
    have e : axialPower (scalOf z) (scalOf z) (scalOf y) (scalOf y) a a u1 u2 e1 e2
        = Real.pi * a * ((3 * (z 0 + y 0) * (u1 + u2) ^ 2 + 4 * (z 5 + y 5) * ((u1 + u2) * (a * (e1 - e2)))
          + 5 * (z 8 - y 8) * (a * (e1 - e2)) ^ 2)
          + (3 * (z 0 - y 0) * (u1 - u2) ^ 2 + 4 * (z 5 - y 5) * ((u1 - u2) * (a * (e1 + e2)))
          + 5 * (z 8 + y 8) * (a * (e1 + e2)) ^ 2)) := by
      simp only [axialPower, scalOf]; ring
    rw [e]
    exact mul_nonneg (by positivity) (add_nonneg k1 k2)
  · have e : twistPower (scalOf z) (scalOf z) (scalOf y) a a o1 o2
        = 4 * Real.pi * a ^ 3 * ((z 3 + y 3) * (o1 + o2) ^ 2 + (z 3 - y 3) * (o1 - o2) ^ 2) := by
      simp only [twistPower, scalOf]; ring
    rw [e]
    exact mul_nonneg (by positivity) (add_nonneg (mul_nonneg c1 (sq_nonneg _)) (mul_nonneg c2 (sq_nonneg _)))
  · have k1 := s1.nonneg (p1 + p2) (a * (q1 - q2)) (a * (t1 - t2))
    have k2 := s2.nonneg (p1 - p2) (a * (q1 + q2)) (a * (t1 + t2))
    have e : shearPower (scalOf z) (scalOf z) (scalOf y) (scalOf y) a a p1 p2 q1 q2 t1 t2
        = Real.pi * a / 3 * ((9 * (z 1 + y 1) * (p1 + p2) ^ 2 + 12 * (z 2 + y 2) * ((p1 + p2) * (a * (q1 - q2)))
          + 12 * (z 4 - y 4) * (a * (q1 - q2)) ^ 2 + 24 * (z 6 + y 6) * ((p1 + p2) * (a * (t1 - t2)))
          + -(48 * (z 7 - y 7)) * (a * (q1 - q2) * (a * (t1 - t2))) + 20 * (z 9 - y 9) * (a * (t1 - t2)) ^ 2)
          + (9 * (z 1 - y 1) * (p1 - p2) ^ 2 + 12 * (z 2 - y 2) * ((p1 - p2) * (a * (q1 + q2)))
          + 12 * (z 4 + y 4) * (a * (q1 + q2)) ^ 2 + 24 * (z 6 - y 6) * ((p1 - p2) * (a * (t1 + t2)))
          + -(48 * (z 7 + y 7)) * (a * (q1 + q2) * (a * (t1 + t2))) + 20 * (z 9 + y 9) * (a * (t1 + t2)) ^ 2)) := by
      simp only [shearPower, scalOf]; ring
    rw [e]
    exact mul_nonneg (by positivity) (add_nonneg k1 k2)
  · have e : planePower (scalOf z) (scalOf z) (scalOf y) a a h1 h2
        = 10 / 3 * Real.pi * a ^ 3 * ((z 10 + y 10) * (h1 + h2) ^ 2 + (z 10 - y 10) * (h1 - h2) ^ 2) := by
      simp only [planePower, scalOf]; ring
    rw [e]
    exact mul_nonneg (by positivity) (add_nonneg (mul_nonneg m1 (sq_nonneg _)) (mul_nonneg m2 (sq_nonneg _)))

/-- Where interpolation reads the table. -/
theorem interp_cell {xs : List ℝ} (hx : xs.Pairwise (· < ·)) (hne : xs ≠ []) (x : ℝ) :
    (x ≤ xs.getD 0 0 ∧ ∀ f : ℕ → ℝ, npInterp x xs f = f 0) ∨
    (xs.getD (xs.length - 1) 0 ≤ x ∧ ∀ f : ℕ → ℝ, npInterp x xs f = f (xs.length - 1)) ∨
    ∃ k, k + 1 < xs.length ∧ xs.getD k 0 ≤ x ∧ x < xs.getD (k + 1) 0 ∧ ∀ f : ℕ → ℝ, npInterp x xs f
      = (1 - (x - xs.getD k 0) / (xs.getD (k + 1) 0 - xs.getD k 0)) * f k
        + (x - xs.getD k 0) / (xs.getD (k + 1) 0 - xs.getD k 0) * f (k + 1) := by
  by_cases h1 : x ≤ xs.getD 0 0
  · exact .inl ⟨h1, fun f => interp_left hx hne f h1⟩
  by_cases h2 : xs.getD (xs.length - 1) 0 ≤ x
  · exact .inr (.inl ⟨h2, fun f => interp_right hx hne f h2⟩)
  push Not at h1 h2
  classical
  set k := Nat.findGreatest (fun k => xs.getD k 0 ≤ x) (xs.length - 1) with hk
  have hkl : k ≤ xs.length - 1 := Nat.findGreatest_le _
  have hk1 : xs.getD k 0 ≤ x := Nat.findGreatest_spec (P := fun k => xs.getD k 0 ≤ x) (Nat.zero_le _) h1.le
  have hlen : 0 < xs.length := List.length_pos_iff.mpr hne
  have hk2 : k + 1 < xs.length := by
    by_contra hc
    have : k = xs.length - 1 := by omega
    rw [this] at hk1
    linarith
  have hk3 : x < xs.getD (k + 1) 0 := by
    have := Nat.findGreatest_is_greatest (P := fun k => xs.getD k 0 ≤ x) (n := xs.length - 1) (k := k + 1)
      (by omega) (by omega)
    exact not_le.mp this
  refine .inr (.inr ⟨k, hk2, hk1, hk3, fun f => ?_⟩)
  rw [interp_inside hx f hk2 hk1 hk3.le]; ring

/-! ## The rows of the shipped table -/

/-- One row for the size ratio 1, as integers. -/
def eqRow (g n : ℕ) : ℕ → ℤ := fun k => shippedRaw k g n 2

theorem rows_ok : ∀ n < 38, n = 9 ∨ n = 10 ∨ EqualOk (eqRow 0 n) (eqRow 1 n) := by
  decide +kernel

theorem row_left : EqualOk (fun k => 4 * eqRow 0 8 k + 21 * eqRow 0 9 k) (fun k => 4 * eqRow 1 8 k + 21 * eqRow 1 9 k) := by
  decide +kernel

theorem row_right :
    EqualOk (fun k => 19 * eqRow 0 10 k + 31 * eqRow 0 11 k) (fun k => 19 * eqRow 1 10 k + 31 * eqRow 1 11 k) := by
  decide +kernel

/-- Tabulated scalars for equal spheres. -/
noncomputable def eqScal (g n : ℕ) : Scalars := scalOf fun k => 1 / 2 ^ 78 * (eqRow g n k : ℝ)

theorem eqScal_row (g n : ℕ) : tableRow shippedTable g n 2 = eqScal g n := by
  simp only [tableRow, shippedTable, eqScal, scalOf, eqRow, Scalars.mk.injEq]
  refine ⟨?_, ?_, ?_, ?_, ?_, ?_, ?_, ?_, ?_, ?_, ?_⟩ <;> ring

theorem shipped_len : shippedTable.sDash.length = 38 := by simp [shippedTable, shippedDist]

theorem shipped_node (n : ℕ) : shippedTable.sDash.getD n 0 = (shippedDist.getD n 0 : ℝ) / 100000 := by
  have : (0 : ℝ) = (fun n : ℕ => (n : ℝ) / 100000) 0 := by simp
  rw [shippedTable, this, List.getD_map]

theorem shippedDist_lt : shippedDist.Pairwise (· < ·) := by decide

theorem shipped_ascending : shippedTable.sDash.Pairwise (· < ·) := by
  refine List.Pairwise.map _ (fun a b h => ?_) shippedDist_lt
  have : (a : ℝ) < b := by exact_mod_cast h
  exact div_lt_div_of_pos_right this (by norm_num)

theorem shipped_ne : shippedTable.sDash ≠ [] := by
  intro h
  have := shipped_len
  rw [h] at this
  simp at this

theorem shipped_one : lamIndex shippedTable 1 = some 2 := by
  refine ((C22_ratio shippedTable 1).1 2).mpr ⟨by simp [shippedTable], by simp [shippedTable]; norm_num, ?_⟩
  intro m hm
  interval_cases m <;> norm_num [shippedTable, abs_of_pos, abs_of_neg]

/-- The scalars of two equal spheres. -/
theorem shipped_scal (g : ℕ) (s : ℝ) : tableScal shippedTable g 1 s = scalarsAt shippedTable g s 2 := by
  rw [tableScal, shipped_one]; rfl

/-- The scalars of two equal spheres at any distance, from the rows of the table. -/
theorem shipped_cell (s : ℝ) :
    (s ≤ 200001 / 100000 ∧ ∀ g, tableScal shippedTable g 1 s = eqScal g 0) ∨
    (450000 / 100000 ≤ s ∧ ∀ g, tableScal shippedTable g 1 s = eqScal g 37) ∨
    ∃ n, n + 1 < 38 ∧ (shippedDist.getD n 0 : ℝ) / 100000 ≤ s ∧ s < (shippedDist.getD (n + 1) 0 : ℝ) / 100000 ∧
      ∀ g, tableScal shippedTable g 1 s = mixScal ((s - (shippedDist.getD n 0 : ℝ) / 100000)
        / ((shippedDist.getD (n + 1) 0 : ℝ) / 100000 - (shippedDist.getD n 0 : ℝ) / 100000)) (eqScal g n)
          (eqScal g (n + 1)) := by
  rcases interp_cell shipped_ascending shipped_ne s with ⟨h, e⟩ | ⟨h, e⟩ | ⟨n, hn, h1, h2, e⟩
  · left
    rw [shipped_node] at h
    refine ⟨by simpa [shippedDist] using h, fun g => ?_⟩
    rw [shipped_scal, ← eqScal_row]
    simp only [scalarsAt, XYZ, e, tableRow]
  · right; left
    rw [shipped_len, shipped_node] at h
    rw [shipped_len] at e
    refine ⟨by simpa [shippedDist] using h, fun g => ?_⟩
    rw [shipped_scal, ← eqScal_row]
    simp only [scalarsAt, XYZ, e, tableRow]
  · right; right
    rw [shipped_len] at hn
    refine ⟨n, hn, by rwa [← shipped_node], by rwa [← shipped_node], fun g => ?_⟩
    rw [shipped_scal, ← eqScal_row, ← eqScal_row]
    simp only [scalarsAt, XYZ, e, tableRow, mixScal, shipped_node]

theorem node_dissipative {n : ℕ} (hn : n < 38) (h9 : n ≠ 9) (h10 : n ≠ 10) {a : ℝ} (ha : 0 < a) :
    Dissipative (eqScal 0 n) (eqScal 0 n) (eqScal 1 n) (eqScal 1 n) a a := by
  rcases rows_ok n hn with h | h | h
  · exact absurd h h9
  · exact absurd h h10
  · exact (h.cast.scale (c := 1 / 2 ^ 78) (by norm_num)).dissipative ha

theorem left_dissipative {a : ℝ} (ha : 0 < a) :
    Dissipative (mixScal (21 / 25) (eqScal 0 8) (eqScal 0 9)) (mixScal (21 / 25) (eqScal 0 8) (eqScal 0 9))
      (mixScal (21 / 25) (eqScal 1 8) (eqScal 1 9)) (mixScal (21 / 25) (eqScal 1 8) (eqScal 1 9)) a a := by
  have e : ∀ g, mixScal (21 / 25) (eqScal g 8) (eqScal g 9)
      = scalOf fun k => 1 / (25 * 2 ^ 78) * ((4 * eqRow g 8 k + 21 * eqRow g 9 k : ℤ) : ℝ) := by
    intro g
    simp only [mixScal, eqScal, scalOf, Scalars.mk.injEq]
    push_cast
    refine ⟨?_, ?_, ?_, ?_, ?_, ?_, ?_, ?_, ?_, ?_, ?_⟩ <;> ring
  rw [e, e]
  exact (row_left.cast.scale (c := 1 / (25 * 2 ^ 78)) (by norm_num)).dissipative ha

theorem right_dissipative {a : ℝ} (ha : 0 < a) :
    Dissipative (mixScal (31 / 50) (eqScal 0 10) (eqScal 0 11)) (mixScal (31 / 50) (eqScal 0 10) (eqScal 0 11))
      (mixScal (31 / 50) (eqScal 1 10) (eqScal 1 11)) (mixScal (31 / 50) (eqScal 1 10) (eqScal 1 11)) a a := by
  have e : ∀ g, mixScal (31 / 50) (eqScal g 10) (eqScal g 11)
      = scalOf fun k => 1 / (50 * 2 ^ 78) * ((19 * eqRow g 10 k + 31 * eqRow g 11 k : ℤ) : ℝ) := by
    intro g
    simp only [mixScal, eqScal, scalOf, Scalars.mk.injEq]
    push_cast
    refine ⟨?_, ?_, ?_, ?_, ?_, ?_, ?_, ?_, ?_, ?_, ?_⟩ <;> ring
  rw [e, e]
  exact (row_right.cast.scale (c := 1 / (50 * 2 ^ 78)) (by norm_num)).dissipative ha

theorem mix_mix (c u : ℝ) (z w : Scalars) : mixScal (c * u) z w = mixScal u z (mixScal c z w) := by
  simp only [mixScal, Scalars.mk.injEq]
  refine ⟨?_, ?_, ?_, ?_, ?_, ?_, ?_, ?_, ?_, ?_, ?_⟩ <;> ring

theorem mix_flip (t : ℝ) (z w : Scalars) : mixScal t z w = mixScal (1 - t) w z := by
  simp only [mixScal, Scalars.mk.injEq]
  refine ⟨?_, ?_, ?_, ?_, ?_, ?_, ?_, ?_, ?_, ?_, ?_⟩ <;> ring

theorem dist_lt {n : ℕ} (hn : n + 1 < 38) : shippedDist.getD n 0 < shippedDist.getD (n + 1) 0 := by
  have : ∀ n < 37, shippedDist.getD n 0 < shippedDist.getD (n + 1) 0 := by decide
  exact this n (by omega)

/-- Equal spheres outside a narrow range of distances are not fed energy. -/
theorem shipped_dissipative {s : ℝ} (hs : s ≤ 2.0092 ∨ 2.0231 ≤ s) {a : ℝ} (ha : 0 < a) :
    Dissipative (tableScal shippedTable 0 1 s) (tableScal shippedTable 0 1 s) (tableScal shippedTable 1 1 s)
      (tableScal shippedTable 1 1 s) a a := by
  rcases shipped_cell s with ⟨h, e⟩ | ⟨h, e⟩ | ⟨n, hn, h1, h2, e⟩
  · rw [e, e]; exact node_dissipative (by norm_num) (by norm_num) (by norm_num) ha
  · rw [e, e]; exact node_dissipative (by norm_num) (by norm_num) (by norm_num) ha
  · have hlt : (shippedDist.getD n 0 : ℝ) < shippedDist.getD (n + 1) 0 := by exact_mod_cast dist_lt hn
    rw [e, e]
    set t := (s - (shippedDist.getD n 0 : ℝ) / 100000)
        / ((shippedDist.getD (n + 1) 0 : ℝ) / 100000 - (shippedDist.getD n 0 : ℝ) / 100000) with ht
    have t0 : 0 ≤ t := div_nonneg (by linarith) (by linarith)
    have t1 : t ≤ 1 := by rw [ht, div_le_one (by linarith)]; linarith
    by_cases h8 : n = 8
    · subst h8
      have d8 : (shippedDist.getD 8 0 : ℝ) = 200500 := by norm_num [shippedDist]
      have d9 : (shippedDist.getD (8 + 1) 0 : ℝ) = 201000 := by norm_num [shippedDist]
      rw [d8, d9] at ht
      rw [d9] at h2
      have hs' : s ≤ 2.0092 := by
        rcases hs with h | h
        · exact h
        · norm_num at h h2 ⊢; linarith
      have ht' : t = 21 / 25 * (t * (25 / 21)) := by ring
      have u1 : t * (25 / 21) ≤ 1 := by rw [ht]; norm_num at hs' ⊢; linarith
      rw [ht', mix_mix (21 / 25) (t * (25 / 21)), mix_mix (21 / 25) (t * (25 / 21))]
      exact dissipative_mix (by positivity) u1 (node_dissipative (by norm_num) (by norm_num) (by norm_num) ha)
        (left_dissipative ha)
    by_cases h10 : n = 10
    · subst h10
      have d10 : (shippedDist.getD 10 0 : ℝ) = 202000 := by norm_num [shippedDist]
      have d11 : (shippedDist.getD (10 + 1) 0 : ℝ) = 202500 := by norm_num [shippedDist]
      rw [d10, d11] at ht
      rw [d10] at h1
      have hs' : 2.0231 ≤ s := by
        rcases hs with h | h
        · norm_num at h h1 ⊢; linarith
        · exact h
      have ht' : 1 - t = 19 / 50 * ((1 - t) * (50 / 19)) := by ring
      have u1 : (1 - t) * (50 / 19) ≤ 1 := by rw [ht]; norm_num at hs' ⊢; linarith
      have r : ∀ g, mixScal (19 / 50) (eqScal g 11) (eqScal g 10) = mixScal (31 / 50) (eqScal g 10) (eqScal g 11) := by
        intro g; rw [mix_flip]; norm_num
      rw [mix_flip, mix_flip t, ht', mix_mix (19 / 50) ((1 - t) * (50 / 19)), mix_mix (19 / 50) ((1 - t) * (50 / 19)), r, r]
      exact dissipative_mix (mul_nonneg (by linarith) (by norm_num)) u1
        (node_dissipative (by norm_num) (by norm_num) (by norm_num) ha) (right_dissipative ha)
    by_cases h9 : n = 9
    · subst h9
      have d9 : (shippedDist.getD 9 0 : ℝ) = 201000 := by norm_num [shippedDist]
      have d10 : (shippedDist.getD (9 + 1) 0 : ℝ) = 202000 := by norm_num [shippedDist]
      rw [d9] at h1
      rw [d10] at h2
      rcases hs with h | h <;> norm_num at h h1 h2 <;> linarith
    exact dissipative_mix t0 t1 (node_dissipative (by omega) h9 h10 ha)
      (node_dissipative hn (by omega) (by omega) ha)

/-! ## Where energy is gained -/

/-- Power of two equal spheres, for opposite rotations and shear rates and equal velocities. -/
def gain {R : Type} [CommRing R] (z y : ℕ → R) (p q s : R) : R :=
  9 * (z 1 + y 1) * p ^ 2 + 12 * (z 2 + y 2) * (p * q) + 12 * (z 4 - y 4) * q ^ 2 + 24 * (z 6 + y 6) * (p * s)
    - 48 * (z 7 - y 7) * (q * s) + 20 * (z 9 - y 9) * s ^ 2

theorem gain_left : gain (fun k => 7 * eqRow 0 8 k + 43 * eqRow 0 9 k) (fun k => 7 * eqRow 1 8 k + 43 * eqRow 1 9 k)
    (-524) (-112) 100 < 0 := by decide +kernel

theorem gain_9 : gain (eqRow 0 9) (eqRow 1 9) (-524) (-112) 100 < 0 := by decide +kernel

theorem gain_10 : gain (eqRow 0 10) (eqRow 1 10) (-524) (-112) 100 < 0 := by decide +kernel

theorem gain_10' : gain (eqRow 0 10) (eqRow 1 10) (-507) (-115) 100 < 0 := by decide +kernel

theorem gain_right : gain (fun k => 2 * eqRow 0 10 k + 3 * eqRow 0 11 k) (fun k => 2 * eqRow 1 10 k + 3 * eqRow 1 11 k)
    (-507) (-115) 100 < 0 := by decide +kernel

theorem gain_cast (z y : ℕ → ℤ) (p q s : ℤ) :
    ((gain z y p q s : ℤ) : ℝ) = gain (fun k => (z k : ℝ)) (fun k => (y k : ℝ)) p q s := by
  simp only [gain]; push_cast; ring

/-- Power of a mixture of two rows. -/
theorem shear_mix (t : ℝ) (n m : ℕ) (a p q s : ℝ) :
    shearPower (mixScal t (eqScal 0 n) (eqScal 0 m)) (mixScal t (eqScal 0 n) (eqScal 0 m))
      (mixScal t (eqScal 1 n) (eqScal 1 m)) (mixScal t (eqScal 1 n) (eqScal 1 m)) a a (a * p) (a * p) q (-q) s (-s)
      = Real.pi * a ^ 3 * (4 / 3) / 2 ^ 78 * ((1 - t) * gain (fun k => (eqRow 0 n k : ℝ)) (fun k => (eqRow 1 n k : ℝ)) p q s
        + t * gain (fun k => (eqRow 0 m k : ℝ)) (fun k => (eqRow 1 m k : ℝ)) p q s) := by
  simp only [shearPower, mixScal, eqScal, scalOf, gain]
  ring

theorem mix_neg {A B t u v : ℝ} (hu : (1 - u) * A + u * B < 0) (hv : (1 - v) * A + v * B < 0) (h1 : u ≤ t) (h2 : t ≤ v)
    (huv : u < v) : (1 - t) * A + t * B < 0 := by
  have e : (v - u) * ((1 - t) * A + t * B)
      = (v - t) * ((1 - u) * A + u * B) + (t - u) * ((1 - v) * A + v * B) := by ring
  refine neg_of_mul_neg_right (a := v - u) ?_ (by linarith)
  rw [e]
  rcases lt_or_eq_of_le h1 with h | h
  · exact add_neg_of_nonpos_of_neg (mul_nonpos_of_nonneg_of_nonpos (by linarith) hu.le)
      (mul_neg_of_pos_of_neg (by linarith) hv)
  · exact add_neg_of_neg_of_nonpos (mul_neg_of_pos_of_neg (by linarith) hu)
      (mul_nonpos_of_nonneg_of_nonpos (by linarith) hv.le)

/-- In a narrow range of distances equal spheres gain energy. -/
theorem shipped_gains {s : ℝ} (h1 : 2.0093 ≤ s) (h2 : s ≤ 2.0230) {a : ℝ} (ha : 0 < a) :
    ∃ p q r : ℝ, shearPower (tableScal shippedTable 0 1 s) (tableScal shippedTable 0 1 s)
      (tableScal shippedTable 1 1 s) (tableScal shippedTable 1 1 s) a a (a * p) (a * p) q (-q) r (-r) < 0 := by
  norm_num at h1 h2
  have c : 0 < Real.pi * a ^ 3 * (4 / 3) / 2 ^ 78 := by have := Real.pi_pos; positivity
  have g9 : gain (fun k => (eqRow 0 9 k : ℝ)) (fun k => (eqRow 1 9 k : ℝ)) (-524) (-112) 100 < 0 := by
    have := gain_cast (eqRow 0 9) (eqRow 1 9) (-524) (-112) 100
    push_cast at this
    rw [← this]; exact_mod_cast gain_9
  have g10 : gain (fun k => (eqRow 0 10 k : ℝ)) (fun k => (eqRow 1 10 k : ℝ)) (-524) (-112) 100 < 0 := by
    have := gain_cast (eqRow 0 10) (eqRow 1 10) (-524) (-112) 100
    push_cast at this
    rw [← this]; exact_mod_cast gain_10
  have g10' : gain (fun k => (eqRow 0 10 k : ℝ)) (fun k => (eqRow 1 10 k : ℝ)) (-507) (-115) 100 < 0 := by
    have := gain_cast (eqRow 0 10) (eqRow 1 10) (-507) (-115) 100
    push_cast at this
    rw [← this]; exact_mod_cast gain_10'
  have gl : 7 * gain (fun k => (eqRow 0 8 k : ℝ)) (fun k => (eqRow 1 8 k : ℝ)) (-524) (-112) 100
      + 43 * gain (fun k => (eqRow 0 9 k : ℝ)) (fun k => (eqRow 1 9 k : ℝ)) (-524) (-112) 100 < 0 := by
    have := gain_cast (fun k => 7 * eqRow 0 8 k + 43 * eqRow 0 9 k) (fun k => 7 * eqRow 1 8 k + 43 * eqRow 1 9 k)
      (-524) (-112) 100
    have h : ((gain (fun k => 7 * eqRow 0 8 k + 43 * eqRow 0 9 k) (fun k => 7 * eqRow 1 8 k + 43 * eqRow 1 9 k)
      (-524) (-112) 100 : ℤ) : ℝ) < 0 := by exact_mod_cast gain_left
    rw [this] at h
    simp only [gain] at h ⊢
    push_cast at h
    linarith
  have gr : 2 * gain (fun k => (eqRow 0 10 k : ℝ)) (fun k => (eqRow 1 10 k : ℝ)) (-507) (-115) 100
      + 3 * gain (fun k => (eqRow 0 11 k : ℝ)) (fun k => (eqRow 1 11 k : ℝ)) (-507) (-115) 100 < 0 := by
    have := gain_cast (fun k => 2 * eqRow 0 10 k + 3 * eqRow 0 11 k) (fun k => 2 * eqRow 1 10 k + 3 * eqRow 1 11 k)
      (-507) (-115) 100
    have h : ((gain (fun k => 2 * eqRow 0 10 k + 3 * eqRow 0 11 k) (fun k => 2 * eqRow 1 10 k + 3 * eqRow 1 11 k)
      (-507) (-115) 100 : ℤ) : ℝ) < 0 := by exact_mod_cast gain_right
    rw [this] at h
    simp only [gain] at h ⊢
    push_cast at h
    linarith
  rcases shipped_cell s with ⟨h, -⟩ | ⟨h, -⟩ | ⟨n, hn, e1, e2, e⟩
  · norm_num at h; linarith
  · norm_num at h; linarith
  have hn8 : 8 ≤ n := by
    by_contra hc
    have : ∀ n < 8, shippedDist.getD (n + 1) 0 ≤ 200500 := by decide
    have : (shippedDist.getD (n + 1) 0 : ℝ) ≤ 200500 := by exact_mod_cast this n (by omega)
    linarith
  have hn10 : n ≤ 10 := by
    by_contra hc
    have : ∀ n < 37, 11 ≤ n → 202500 ≤ shippedDist.getD n 0 := by decide
    have : (202500 : ℝ) ≤ shippedDist.getD n 0 := by exact_mod_cast this n (by omega) (by omega)
    linarith
  have d8 : (shippedDist.getD 8 0 : ℝ) = 200500 := by norm_num [shippedDist]
  have d9 : (shippedDist.getD 9 0 : ℝ) = 201000 := by norm_num [shippedDist]
  have d10 : (shippedDist.getD 10 0 : ℝ) = 202000 := by norm_num [shippedDist]
  have d11 : (shippedDist.getD 11 0 : ℝ) = 202500 := by norm_num [shippedDist]
  obtain rfl | rfl | rfl : n = 8 ∨ n = 9 ∨ n = 10 := by omega
  · refine ⟨-524, -112, 100, ?_⟩
    rw [e, e, shear_mix]
    refine mul_neg_of_pos_of_neg c ?_
    norm_num only at e1 e2 ⊢
    rw [d8] at e1 ⊢
    rw [d9] at e2 ⊢
    refine mix_neg (u := 43 / 50) (v := 1) (by linarith) (by linarith) ?_ ?_ (by norm_num)
    · rw [le_div_iff₀ (by norm_num)]; linarith
    · rw [div_le_iff₀ (by norm_num)]; linarith
  · refine ⟨-524, -112, 100, ?_⟩
    rw [e, e, shear_mix]
    refine mul_neg_of_pos_of_neg c ?_
    norm_num only at e1 e2 ⊢
    rw [d9] at e1 ⊢
    rw [d10] at e2 ⊢
    refine mix_neg (u := 0) (v := 1) (by linarith) (by linarith) ?_ ?_ (by norm_num)
    · rw [le_div_iff₀ (by norm_num)]; linarith
    · rw [div_le_iff₀ (by norm_num)]; linarith
  · refine ⟨-507, -115, 100, ?_⟩
    rw [e, e, shear_mix]
    refine mul_neg_of_pos_of_neg c ?_
    norm_num only at e1 e2 ⊢
    rw [d10] at e1 ⊢
    rw [d11] at e2 ⊢
    refine mix_neg (u := 0) (v := 3 / 5) (by linarith) (by linarith) ?_ ?_ (by norm_num)
    · rw [le_div_iff₀ (by norm_num)]; linarith
    · rw [div_le_iff₀ (by norm_num)]; linarith

end SD
