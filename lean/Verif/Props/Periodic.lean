import Verif.Model.ClosePairsPeriodic
import Verif.Props.Motion
import Verif.Lemmas.ClosePairs

/-!
# C24: the neighbour search in a periodic box
-/

set_option autoImplicit false

namespace SD

open Spec

theorem abs_le_len (v : Vec3) (k : Fin 3) : |v k| ≤ len v := by
  unfold len
  rw [← Real.sqrt_sq_eq_abs]
  exact Real.sqrt_le_sqrt (Finset.single_le_sum (f := fun i => v i ^ 2) (fun i _ => sq_nonneg (v i)) (Finset.mem_univ k))

theorem mem_radius {n : ℕ} {d : ℕ → Vec3} {c : ℝ} {i j : ℕ} :
    j ∈ particlesInRadius n d c i ↔ j < n ∧ i ≤ j ∧ len (d j) ≤ c := by
  unfold particlesInRadius
  simp only [List.mem_filter, List.mem_range, decide_eq_true_eq, norm3_eq_len, ge_iff_le]
  constructor
  · rintro ⟨⟨⟨h1, -⟩, h2⟩, h3⟩
    exact ⟨h1, h3, h2⟩
  · rintro ⟨h1, h2, h3⟩
    refine ⟨⟨⟨h1, ?_⟩, h3⟩, h2⟩
    exact max_le (max_le ((abs_le_len _ _).trans h3) ((abs_le_len _ _).trans h3)) ((abs_le_len _ _).trans h3)

theorem vecMat3_sub (u v : Vec3) (A : Mat3) :
    vecMat3 (fun k => u k - v k) A = fun k => vecMat3 u A k - vecMat3 v A k := by
  funext k
  simp only [vecMat3, Fin.sum_univ_three]
  ring

theorem canonical_spans {L : Vec3} (hL : ∀ i, 0 < L i) : Spans (basis_canonical L) := by
  have h0 := (hL 0).ne'
  have h1 := (hL 1).ne'
  have h2 := (hL 2).ne'
  simp [Spans, basis_canonical, h0, h1, h2]

section
variable {bl tr Ot : Vec3} {Et B : Mat3} (hL : ∀ i, bl i < tr i)
  (hB : FoldedBox (fun i => tr i - bl i) Ot Et B)
include hL hB

/-- The list, with the image of each particle in the cell around each other one. -/
theorem periodic_list (hs : Spans B) (n : ℕ) (pos : ℕ → Vec3) (size : ℕ → ℝ) (k : ℝ) :
    ∃ y : ℕ → ℕ → Vec3, ∃ l, (∀ i j, InCell B (y i j) ∧ InLattice B (fun m => (pos j m - pos i m) - y i j m)) ∧
      close_particles_periodic n pos size k bl tr Ot Et = some l ∧
      l.Pairwise RowOrder ∧
      ∀ p, p ∈ l ↔ p.i ≤ p.j ∧ p.j < n ∧ len (y p.i p.j) ≤ 2 * k ∧
        2 * len (y p.i p.j) / (size p.i + size p.j) ≤ 2 * k ∧
        p = ⟨p.i, p.j, fun m => 2 * y p.i p.j m / (size p.i + size p.j),
          2 * len (y p.i p.j) / (size p.i + size p.j), size p.j / size p.i⟩ := by
  have hL' : ∀ i, 0 < tr i - bl i := fun i => sub_pos.mpr (hL i)
  obtain rfl := folded_unique hB (shear_basis_folded hL')
  obtain ⟨Bi, hBi, -⟩ := fold_coords hs 0
  obtain ⟨Ci, hCi, -, -, hc, -⟩ := inv3_some ((spans_iff _).mp (canonical_spans hL'))
  set B := shear_basis_vectors (basis_canonical fun i => tr i - bl i) (fun i => tr i - bl i) Ot Et
  set C := basis_canonical fun i => tr i - bl i
  set x := unshearedPositions pos Bi C
  have hy : ∀ i j, shearedCentredBox x Ci B i j
      = vecMat3 (fun m => npMod (vecMat3 (fun k => pos j k - pos i k) Bi m + 0.5) 1 - 0.5) B := by
    intro i j
    unfold shearedCentredBox
    congr 1
    funext m
    have : vecMat3 (fun k => x j k - x i k) Ci = vecMat3 (fun k => pos j k - pos i k) Bi := by
      rw [vecMat3_sub, vecMat3_sub]
      show (fun k => vecMat3 (vecMat3 (vecMat3 (pos j) Bi) C) Ci k - vecMat3 (vecMat3 (vecMat3 (pos i) Bi) C) Ci k) = _
      rw [hc, hc]
    rw [this]
  obtain ⟨l, hl⟩ : ∃ l, close_particles_periodic n pos size k bl tr Ot Et = some l := by
    unfold close_particles_periodic
    exact ⟨_, Option.bind_eq_some_iff.mpr ⟨Bi, hBi, Option.bind_eq_some_iff.mpr ⟨Ci, hCi, rfl⟩⟩⟩
  have hl' := hl
  unfold close_particles_periodic at hl'
  obtain ⟨Bi', hBi', hl'⟩ := Option.bind_eq_some_iff.mp hl'
  obtain rfl := Option.some.inj (hBi.symm.trans hBi')
  obtain ⟨Ci', hCi', hl'⟩ := Option.bind_eq_some_iff.mp hl'
  obtain rfl := Option.some.inj (hCi.symm.trans hCi')
  have hl' := Option.some.inj hl'
  subst hl'
  refine ⟨fun i j => shearedCentredBox x Ci B i j, _, fun i j => ?_, hl, ?_, ?_⟩
  rotate_left
  · rw [List.pairwise_map]
    refine List.Pairwise.filter _ ?_
    rw [List.pairwise_flatMap]
    constructor
    · intro a _
      rw [List.pairwise_map]
      unfold particlesInRadius
      refine List.Pairwise.filter _ (List.Pairwise.filter _ (List.Pairwise.filter _ ?_))
      exact List.pairwise_lt_range.imp fun h => Or.inr ⟨rfl, h⟩
    · refine List.pairwise_lt_range.imp ?_
      intro a b hab u hu v hv
      obtain ⟨_, -, rfl⟩ := List.mem_map.mp hu
      obtain ⟨_, -, rfl⟩ := List.mem_map.mp hv
      exact Or.inl hab
  · intro p
    simp only [List.mem_map, List.mem_filter, List.mem_flatMap, List.mem_range, decide_eq_true_eq, mem_radius,
      norm3_eq_len]
    constructor
    · rintro ⟨⟨a, b, d⟩, ⟨⟨i, hi, j, ⟨h1, h2, h3⟩, e⟩, h4⟩, rfl⟩
      simp only [Prod.mk.injEq] at e
      obtain ⟨rfl, rfl, rfl⟩ := e
      exact ⟨h2, h1, h3, h4, rfl⟩
    · rintro ⟨h1, h2, h3, h4, h5⟩
      refine ⟨(p.i, p.j, shearedCentredBox x Ci B p.i p.j), ⟨⟨p.i, by omega, p.j, ⟨h2, h1, h3⟩, rfl⟩, h4⟩, h5.symm⟩
  · dsimp only
    rw [hy]
    obtain ⟨Bi', hBi', a, b⟩ := fold_coords hs (fun k => pos j k - pos i k)
    obtain rfl := Option.some.inj (hBi.symm.trans hBi')
    exact ⟨a, b⟩

/-- **C24.** In a box whose (folded) edge vectors are the rows of `B`, the search returns, row by row and each once,
exactly the pairs `i ≤ j` for which the image `y` of particle `j` in the cell centred on particle `i` is within
the cutoff, both as it is and in units of the mean radius. Displacement and distance are those of `y` in
units of the mean radius. -/
theorem C24_periodic (hs : Spans B) (n : ℕ) (pos : ℕ → Vec3) (size : ℕ → ℝ) (k : ℝ) :
    ∃ l, close_particles_periodic n pos size k bl tr Ot Et = some l ∧
      l.Pairwise (fun p q => p.i < q.i ∨ (p.i = q.i ∧ p.j < q.j)) ∧
      (∀ p ∈ l, p.i ≤ p.j ∧ p.j < n ∧ p.dist ≤ 2 * k ∧ p.ratio = size p.j / size p.i ∧
        ∃ y, InCell B y ∧ InLattice B (fun m => (pos p.j m - pos p.i m) - y m) ∧ len y ≤ 2 * k ∧
          p.dist = len y / ((size p.i + size p.j) / 2) ∧ ∀ m, p.disp m = y m / ((size p.i + size p.j) / 2)) ∧
      (∀ i j y, i ≤ j → j < n → InCell B y → InLattice B (fun m => (pos j m - pos i m) - y m) → len y ≤ 2 * k →
        len y / ((size i + size j) / 2) ≤ 2 * k → ∃ p ∈ l, p.i = i ∧ p.j = j) := by
  obtain ⟨y, l, hy, hl, hp, hm⟩ := periodic_list hL hB hs n pos size k
  have e : ∀ a b : ℝ, 2 * a / b = a / (b / 2) := fun a b => by rw [div_div_eq_mul_div, mul_comm]
  refine ⟨l, hl, hp, fun p hpl => ?_, fun i j z hij hj hc hlat h1 h2 => ?_⟩
  · obtain ⟨h1, h2, h3, h4, h5⟩ := (hm p).mp hpl
    have hd : p.dist = len (y p.i p.j) / ((size p.i + size p.j) / 2) := by
      rw [← e]; exact congrArg ClosePair.dist h5
    refine ⟨h1, h2, by rw [hd, ← e]; exact h4, congrArg ClosePair.ratio h5, y p.i p.j, (hy _ _).1, (hy _ _).2, h3, hd,
      fun m => ?_⟩
    rw [← e]
    exact congrFun (congrArg ClosePair.disp h5) m
  · have hz : z = y i j := by
      apply cell_unique hs hc (hy i j).1
      have := inLattice_add (inLattice_neg hlat) (hy i j).2
      refine (congrArg (InLattice B) ?_).mp this
      funext k; ring
    subst hz
    exact ⟨_, (hm ⟨i, j, fun m => 2 * y i j m / (size i + size j), 2 * len (y i j) / (size i + size j),
      size j / size i⟩).mpr ⟨hij, hj, h1, by rw [e]; exact h2, rfl⟩, rfl, rfl⟩

/-- A singular box stops the program. -/
theorem C24_degenerate (hs : ¬ Spans B) (n : ℕ) (pos : ℕ → Vec3) (size : ℕ → ℝ) (k : ℝ) :
    close_particles_periodic n pos size k bl tr Ot Et = none := by
  obtain rfl := folded_unique hB (shear_basis_folded fun i => sub_pos.mpr (hL i))
  unfold close_particles_periodic
  dsimp only
  rw [inv3_none]
  · rfl
  · by_contra hc
    exact hs ((spans_iff _).mpr hc)

end

/-- A cube of side 10 sheared by 0.9 along x, growing along z. -/
noncomputable def skewO : Vec3 := ![0, 9 / 20, 0]

/-- See `skewO`. -/
noncomputable def skewE : Mat3 := ![![0, 0, 9 / 20], ![0, 0, 0], ![9 / 20, 0, 0]]

/-- The edges of that cube. -/
def skewB : Mat3 := ![![10, 0, 0], ![0, 10, 0], ![9, 0, 10]]

/-- Two particles, at the origin and at `x`. -/
def twoAt (x : Vec3) : ℕ → Vec3 := fun i => if i = 0 then fun _ => 0 else x

/-- Evaluate vectors of numbers. -/
local macro "vec" : tactic => `(tactic| (simp [combine, skewB, skewO, skewE, twoAt, edge, cross, app, dotp] <;> norm_num))

theorem skew_folded : FoldedBox (fun i => (![10, 10, 10] : Vec3) i - (![0, 0, 0] : Vec3) i) skewO skewE skewB := by
  intro k i
  constructor
  · fin_cases k <;> fin_cases i <;> vec
  · refine ⟨0, ?_⟩
    fin_cases k <;> fin_cases i <;> vec

theorem skew_spans : Spans skewB := by
  unfold Spans
  vec

theorem skew_sides (i : Fin 3) : (![0, 0, 0] : Vec3) i < (![10, 10, 10] : Vec3) i := by
  fin_cases i <;> vec

/-- Across the boundary of the sheared box: a sphere at `(10.1, 0, 9.9)` is seen from the origin at `(1.1, 0, -0.1)`, and
the pair is found. -/
example : ∃ l, close_particles_periodic 2 (twoAt ![101 / 10, 0, 99 / 10]) (fun _ => 1) 2 ![0, 0, 0] ![10, 10, 10] skewO skewE
    = some l ∧ ∃ p ∈ l, p.i = 0 ∧ p.j = 1 := by
  obtain ⟨l, h1, -, -, h2⟩ := C24_periodic skew_sides skew_folded skew_spans 2 (twoAt ![101 / 10, 0, 99 / 10])
    (fun _ => 1) 2
  have hlen : len ![11 / 10, 0, -(1 / 10)] ≤ 2 * 2 := by
    unfold len
    rw [Real.sqrt_le_left (by norm_num), Fin.sum_univ_three]
    vec
  refine ⟨l, h1, h2 0 1 ![11 / 10, 0, -(1 / 10)] (by omega) (by omega)
    ⟨![119 / 1000, 0, -(1 / 100)], fun i => by fin_cases i <;> vec, ?_⟩ ⟨![0, 0, 1], ?_⟩ hlen (by norm_num; linarith)⟩
  · funext i; fin_cases i <;> vec
  · funext i; fin_cases i <;> vec

/-- **C24** (not the nearest image). The search only looks at the image in the cell, which in a sheared box need not
be the nearest one. Here two unit spheres have images at a distance below the cutoff 4, at `(-2.85, 0, 2.5)` from one
another, and the pair is not found. -/
theorem C24_nearest_missed : ∃ l, close_particles_periodic 2 (twoAt ![143 / 20, 0, 5 / 2]) (fun _ => 1) 2 ![0, 0, 0]
      ![10, 10, 10] skewO skewE = some l ∧ (∀ p ∈ l, ¬ (p.i = 0 ∧ p.j = 1)) ∧
    InLattice skewB (fun m => (![143 / 20, 0, 5 / 2] : Vec3) m - (![-(57 / 20), 0, 5 / 2] : Vec3) m) ∧
    len ![-(57 / 20), 0, 5 / 2] < 2 * 2 := by
  obtain ⟨l, h1, -, h2, -⟩ := C24_periodic skew_sides skew_folded skew_spans 2 (twoAt ![143 / 20, 0, 5 / 2])
    (fun _ => 1) 2
  refine ⟨l, h1, fun p hp ⟨e0, e1⟩ => ?_, ⟨![1, 0, 0], ?_⟩, ?_⟩
  · obtain ⟨-, -, -, -, y, hc, hl, hlen, -⟩ := h2 p hp
    rw [e0, e1] at hl
    have hy : y = ![143 / 20, 0, 5 / 2] := by
      refine cell_unique skew_spans hc ⟨![49 / 100, 0, 1 / 4], fun i => by fin_cases i <;> vec, ?_⟩ ?_
      · funext i; fin_cases i <;> vec
      · refine (congrArg (InLattice skewB) ?_).mp (inLattice_neg hl)
        funext m
        simp [twoAt]
    rw [hy] at hlen
    unfold len at hlen
    rw [Real.sqrt_le_left (by norm_num), Fin.sum_univ_three] at hlen
    simp at hlen
    norm_num at hlen
  · funext i; fin_cases i <;> vec
  · unfold len
    rw [Real.sqrt_lt' (by norm_num), Fin.sum_univ_three]
    vec

/-- **C24** (large particles). The unscaled distance is tested first. So two spheres of radius 3 at a distance 4.5,
that is 1.5 mean radii, overlapping, are not found with the cutoff 4. -/
theorem C24_large_missed : ∃ l, close_particles_periodic 2 (twoAt ![0, 9 / 2, 0]) (fun _ => 3) 2 ![0, 0, 0]
      ![10, 10, 10] skewO skewE = some l ∧ (∀ p ∈ l, ¬ (p.i = 0 ∧ p.j = 1)) ∧
    len ![0, 9 / 2, 0] / ((3 + 3) / 2) < 2 * 2 := by
  obtain ⟨l, h1, -, h2, -⟩ := C24_periodic skew_sides skew_folded skew_spans 2 (twoAt ![0, 9 / 2, 0])
    (fun _ => 3) 2
  refine ⟨l, h1, fun p hp ⟨e0, e1⟩ => ?_, ?_⟩
  · obtain ⟨-, -, -, -, y, hc, hl, hlen, -⟩ := h2 p hp
    rw [e0, e1] at hl
    have hy : y = ![0, 9 / 2, 0] := by
      refine cell_unique skew_spans hc ⟨![0, 9 / 20, 0], fun i => by fin_cases i <;> vec, ?_⟩ ?_
      · funext i; fin_cases i <;> vec
      · refine (congrArg (InLattice skewB) ?_).mp (inLattice_neg hl)
        funext m
        simp [twoAt]
    rw [hy] at hlen
    unfold len at hlen
    rw [Real.sqrt_le_left (by norm_num), Fin.sum_univ_three] at hlen
    simp at hlen
    norm_num at hlen
  · have : len ![0, 9 / 2, 0] < 12 := by
      unfold len
      rw [Real.sqrt_lt' (by norm_num), Fin.sum_univ_three]
      vec
    norm_num
    linarith

end SD
