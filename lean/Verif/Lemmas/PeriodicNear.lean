import Verif.Model.R2BPeriodic
import Verif.Spec.PeriodicNear
import Verif.Props.Periodic
import Verif.Props.NearDissipation

/-!
# Neighbours in a periodic box
-/

set_option autoImplicit false

namespace SD

open Spec Near

theorem cellImage_spec {B : Mat3} (hs : Spans B) (v : Vec3) :
    InCell B (cellImage B v) ∧ InLattice B fun m => v m - cellImage B v m := by
  have h : ∃ y, InCell B y ∧ InLattice B (fun m => v m - y m) := by
    obtain ⟨Bi, -, a, b⟩ := fold_coords hs v
    exact ⟨_, a, b⟩
  unfold cellImage
  rw [dif_pos h]
  exact h.choose_spec

theorem cellImage_eq {B : Mat3} (hs : Spans B) {v y : Vec3} (hy : InCell B y)
    (hl : InLattice B fun m => v m - y m) : cellImage B v = y := by
  refine cell_unique hs (cellImage_spec hs v).1 hy ?_
  have := inLattice_add (inLattice_neg (cellImage_spec hs v).2) hl
  refine (congrArg (InLattice B) ?_).mp this
  funext m; ring

theorem cellImage_congr {B : Mat3} (hs : Spans B) {v w : Vec3} (h : InLattice B fun m => w m - v m) :
    cellImage B v = cellImage B w := by
  refine cellImage_eq hs (cellImage_spec hs w).1 ?_
  have := inLattice_add (cellImage_spec hs w).2 (inLattice_neg h)
  refine (congrArg (InLattice B) ?_).mp this
  funext m; ring

theorem cellImage_inCell {B : Mat3} (hs : Spans B) {v : Vec3} (h : InCell B v) : cellImage B v = v := by
  refine cellImage_eq hs h ((congrArg (InLattice B) ?_).mp inLattice_zero)
  funext m; simp

theorem cellImage_pos {B : Mat3} (hs : Spans B) {v : Vec3} (h : ¬ InLattice B v) : 0 < len (cellImage B v) := by
  refine lt_of_le_of_ne (Real.sqrt_nonneg _) fun e => h ?_
  have h0 : ∀ m, cellImage B v m = 0 := fun m => by
    have := abs_le_len (cellImage B v) m
    rw [← e] at this
    exact abs_eq_zero.mp (le_antisymm this (abs_nonneg _))
  have := (cellImage_spec hs v).2
  refine (congrArg (InLattice B) ?_).mp this
  funext m; rw [h0]; ring

/-- The entry for the beads `a ≤ b`. -/
noncomputable def cellPair (B : Mat3) (pos : ℕ → Vec3) (size : ℕ → ℝ) (a b : ℕ) : ClosePair :=
  ⟨a, b, fun m => 2 * cellImage B (fun m => pos b m - pos a m) m / (size a + size b),
    2 * len (cellImage B fun m => pos b m - pos a m) / (size a + size b), size b / size a⟩

section
variable {bl tr Ot : Vec3} {Et B : Mat3} (hL : ∀ i, bl i < tr i)
  (hB : FoldedBox (fun i => tr i - bl i) Ot Et B)
include hL hB

theorem cell_list (hs : Spans B) (n : ℕ) (pos : ℕ → Vec3) (size : ℕ → ℝ) (k : ℝ) :
    ∃ l, close_particles_periodic n pos size k bl tr Ot Et = some l ∧ l.Pairwise RowOrder ∧
      ∀ p, p ∈ l ↔ p.i ≤ p.j ∧ p.j < n ∧ len (cellImage B fun m => pos p.j m - pos p.i m) ≤ 2 * k ∧
        2 * len (cellImage B fun m => pos p.j m - pos p.i m) / (size p.i + size p.j) ≤ 2 * k ∧
        p = cellPair B pos size p.i p.j := by
  obtain ⟨y, l, hy, hl, hp, hm⟩ := periodic_list hL hB hs n pos size k
  have e : ∀ i j, y i j = cellImage B fun m => pos j m - pos i m := fun i j =>
    (cellImage_eq hs (hy i j).1 (hy i j).2).symm
  refine ⟨l, hl, hp, fun p => ?_⟩
  rw [hm p, e]
  rfl

end

theorem sorted_ext {l l' : List ClosePair} (h : l.Pairwise RowOrder) (h' : l'.Pairwise RowOrder)
    (hm : ∀ p, p ∈ l ↔ p ∈ l') : l = l' := by
  have irr : ∀ p q, RowOrder p q → p ≠ q := by
    rintro p _ h rfl
    unfold RowOrder at h; omega
  have hp : l.Perm l' := (List.perm_ext_iff_of_nodup (h.imp (irr _ _)) (h'.imp (irr _ _))).mpr hm
  refine List.Perm.eq_of_pairwise (le := RowOrder) (fun a b _ _ h1 h2 => ?_) h h' hp
  unfold RowOrder at h1 h2; omega

theorem cellStep_lt {B : Mat3} {pos : ℕ → Vec3} {x y : ℕ} (h : x < y) :
    cellStep B pos x y = cellImage B fun m => pos y m - pos x m := if_pos h

theorem cellStep_gt {B : Mat3} {pos : ℕ → Vec3} {x y : ℕ} (h : x < y) :
    cellStep B pos y x = fun m => -cellImage B (fun m => pos y m - pos x m) m := if_neg (by omega)

section
variable {bl tr Ot : Vec3} {Et B : Mat3} (hL : ∀ i, bl i < tr i)
  (hB : FoldedBox (fun i => tr i - bl i) Ot Et B)
include hL hB

/-- The pair list describes the neighbours in the box. -/
theorem cell_links (hs : Spans B) {n : ℕ} {pos : ℕ → Vec3} {size : ℕ → ℝ} {k : ℝ} (hk : 0 ≤ k)
    (h0 : ∀ x < n, 0 < size x)
    (hap : ∀ x < n, ∀ y < n, x ≠ y → ¬ InLattice B fun m => pos y m - pos x m) :
    ∃ l, close_particles_periodic n pos size k bl tr Ot Et = some l ∧ Links n size l (cellLink B k pos size) := by
  obtain ⟨l, hl, hp, hm⟩ := cell_list hL hB hs n pos size k
  refine ⟨l, hl, ?_⟩
  have e2 : ∀ a b : ℝ, 2 * a / b = a / (b / 2) := fun a b => by rw [div_div_eq_mul_div, mul_comm]
  have mk : ∀ x y, x ≤ y → y < n → len (cellImage B fun m => pos y m - pos x m) ≤ 2 * k →
      len (cellImage B fun m => pos y m - pos x m) / ((size x + size y) / 2) ≤ 2 * k →
      cellPair B pos size x y ∈ l := fun x y h1 h2 h3 h4 =>
    (hm _).mpr ⟨h1, h2, h3, by rw [e2]; exact h4, rfl⟩
  have dd : ∀ p ∈ l, p.i ≠ p.j → ∀ m, p.disp m / p.dist = cellImage B (fun m => pos p.j m - pos p.i m) m
      / len (cellImage B fun m => pos p.j m - pos p.i m) := by
    intro p hpl hne m
    obtain ⟨h1, h2, h3, h4, h5⟩ := (hm p).mp hpl
    have a := h0 p.i (by omega)
    have b := h0 p.j (by omega)
    have c := cellImage_pos hs (hap p.i (by omega) p.j h2 hne)
    have d1 : p.disp m = 2 * cellImage B (fun m => pos p.j m - pos p.i m) m / (size p.i + size p.j) :=
      congrFun (congrArg ClosePair.disp h5) m
    have d2 : p.dist = 2 * len (cellImage B fun m => pos p.j m - pos p.i m) / (size p.i + size p.j) :=
      congrArg ClosePair.dist h5
    rw [d1, d2]
    field_simp
  constructor
  · intro p hpl
    have := (hm p).mp hpl
    exact ⟨this.1, this.2.1⟩
  · intro x hx
    have hz : cellImage B (fun m => pos x m - pos x m) = fun _ => 0 := by
      refine cellImage_eq hs ⟨fun _ => 0, fun i => by norm_num, ?_⟩ ((congrArg (InLattice B) ?_).mp inLattice_zero)
      · funext m; simp [combine]
      · funext m; simp
    have hz' : len (cellImage B fun m => pos x m - pos x m) = 0 := by
      rw [hz]; exact len_zero
    exact ⟨_, mk x x le_rfl hx (by rw [hz']; positivity) (by rw [hz']; simpa using hk), rfl, rfl⟩
  · refine hp.imp ?_
    rintro p q h ⟨h1, h2⟩
    unfold RowOrder at h
    omega
  · intro p hpl; exact congrArg ClosePair.ratio ((hm p).mp hpl).2.2.2.2
  · intro p hpl hne
    obtain ⟨h1, h2, h3, h4, h5⟩ := (hm p).mp hpl
    have d2 : p.dist = 2 * len (cellImage B fun m => pos p.j m - pos p.i m) / (size p.i + size p.j) :=
      congrArg ClosePair.dist h5
    rw [e2] at h4 d2
    unfold cellLink
    dsimp only
    rw [cellStep_lt (lt_of_le_of_ne h1 hne), if_pos ⟨h3, h4⟩, d2]
    congr 2
    funext m
    rw [← dd p hpl hne m, d2]
  · intro p hpl hne
    obtain ⟨h1, h2, h3, h4, h5⟩ := (hm p).mp hpl
    have d2 : p.dist = 2 * len (cellImage B fun m => pos p.j m - pos p.i m) / (size p.i + size p.j) :=
      congrArg ClosePair.dist h5
    rw [e2] at h4 d2
    unfold cellLink
    dsimp only
    have hlen : len (fun m => -cellImage B (fun m => pos p.j m - pos p.i m) m)
        = len (cellImage B fun m => pos p.j m - pos p.i m) := len_neg _
    rw [cellStep_gt (lt_of_le_of_ne h1 hne), hlen, add_comm (size p.j), if_pos ⟨h3, h4⟩, ← d2]
    congr 2
    funext m
    rw [dd p hpl hne m, neg_div]
  · intro x hx y hy hne hn
    unfold cellLink
    dsimp only
    rw [if_neg]
    rintro ⟨g1, g2⟩
    rcases Nat.lt_or_gt_of_ne hne with h | h
    · rw [cellStep_lt h] at g1 g2
      exact hn _ (mk x y h.le hy g1 g2) (Or.inl ⟨rfl, rfl⟩)
    · rw [cellStep_gt h] at g1 g2
      have hlen : len (fun m => -cellImage B (fun m => pos x m - pos y m) m)
          = len (cellImage B fun m => pos x m - pos y m) := len_neg _
      rw [hlen] at g1 g2
      rw [add_comm] at g2
      exact hn _ (mk y x h.le hx g1 g2) (Or.inr ⟨rfl, rfl⟩)
  · intro p hpl hne
    have h := dd p hpl hne
    obtain ⟨h1, h2, -⟩ := (hm p).mp hpl
    simp only [h]
    exact unit_dotp (cellImage_pos hs (hap p.i (by omega) p.j h2 hne))

end

end SD
