import Verif.Model.Setups
import Verif.Spec.Setups
import Mathlib.Tactic.IntervalCases

/-!
# Lemmas about the listed setups
-/

set_option autoImplicit false

namespace SD.Setup

open Spec

theorem gap_of_sq {p q : Fin 3 → ℝ} {c : ℝ} (h : c ^ 2 ≤ (p 0 - q 0) ^ 2 + (p 1 - q 1) ^ 2 + (p 2 - q 2) ^ 2) :
    c ≤ gap p q := by
  unfold gap len
  refine Real.le_sqrt_of_sq_le ?_
  rw [Fin.sum_univ_three]
  exact h

theorem gap_comm (p q : Fin 3 → ℝ) : gap p q = gap q p := by
  unfold gap len
  congr 1
  exact Finset.sum_congr rfl fun c _ => by ring

/-- The beads are the spheres and the two beads of each dumbbell. -/
theorem bead_cases (P : PosData) {x : ℕ} (hx : x < beads P) :
    (x < P.Ns ∧ centre P x = P.spherePos x ∧ radius P x = P.sphereSize x) ∨
    ∃ j < P.Nd, ∃ e : Bool, x = P.Ns + (if e then P.Nd else 0) + j ∧
      centre P x = beadOf (P.dumbPos j, P.dumbDx j) e ∧ radius P x = P.dumbSize j := by
  unfold beads at hx
  by_cases h1 : x < P.Ns
  · refine .inl ⟨h1, ?_, by simp [radius, h1]⟩
    funext c; simp [centre, h1]
  · right
    by_cases h2 : x < P.Ns + P.Nd
    · refine ⟨x - P.Ns, by omega, false, by simp; omega, ?_, by simp [radius, h1, h2]⟩
      funext c; simp [centre, h1, h2, beadOf]
    · refine ⟨x - (P.Ns + P.Nd), by omega, true, by simp; omega, ?_, by simp [radius, h1, h2]⟩
      funext c; simp [centre, h1, h2, beadOf]

theorem gap_own (d : (Fin 3 → ℝ) × (Fin 3 → ℝ)) : gap (beadOf d true) (beadOf d false) = len d.2 := by
  simp only [gap, beadOf, if_true, Bool.false_eq_true, if_false]
  congr 1; funext c; ring

theorem spread_of {κ : ℝ} {P : PosData}
    (hS : ∀ i < P.Ns, ∀ j < P.Ns, i ≠ j → κ * ((P.sphereSize i + P.sphereSize j) / 2) ≤ gap (P.spherePos i) (P.spherePos j))
    (hSD : ∀ i < P.Ns, ∀ j < P.Nd, ∀ e, κ * ((P.sphereSize i + P.dumbSize j) / 2) ≤
      gap (P.spherePos i) (beadOf (P.dumbPos j, P.dumbDx j) e))
    (hDD : ∀ i < P.Nd, ∀ j < P.Nd, ∀ e e', i ≠ j → κ * ((P.dumbSize i + P.dumbSize j) / 2) ≤
      gap (beadOf (P.dumbPos i, P.dumbDx i) e) (beadOf (P.dumbPos j, P.dumbDx j) e'))
    (hown : ∀ i < P.Nd, κ * P.dumbSize i ≤ len (P.dumbDx i)) : Spread κ P := by
  intro x hx y hy hxy
  rcases bead_cases P hx with ⟨x1, x2, x3⟩ | ⟨i, hi, e, x1, x2, x3⟩ <;>
    rcases bead_cases P hy with ⟨y1, y2, y3⟩ | ⟨j, hj, e', y1, y2, y3⟩ <;> rw [x2, x3, y2, y3]
  · exact hS x x1 y y1 hxy
  · exact hSD x x1 j hj e'
  · rw [gap_comm, add_comm]; exact hSD y y1 i hi e
  · by_cases hij : i = j
    · subst hij
      have e0 : κ * ((P.dumbSize i + P.dumbSize i) / 2) = κ * P.dumbSize i := by ring
      rw [e0]
      cases e <;> cases e'
      · omega
      · rw [gap_comm, gap_own]; exact hown i hi
      · rw [gap_own]; exact hown i hi
      · omega
    · exact hDD i hi j hj e e' hij

theorem getD_eq {α : Type*} {l : List α} {d : α} {i : ℕ} (h : i < l.length) : l.getD i d = l[i] := by
  simp [List.getD_eq_getElem?_getD, List.getElem?_eq_getElem h]

theorem pairwise_getD {α : Type*} {R : α → α → Prop} {l : List α} {d : α} (hs : ∀ a b, R a b → R b a)
    (h : l.Pairwise R) {i j : ℕ} (hi : i < l.length) (hj : j < l.length) (hij : i ≠ j) :
    R (l.getD i d) (l.getD j d) := by
  rw [getD_eq hi, getD_eq hj]
  rw [List.pairwise_iff_getElem] at h
  rcases Nat.lt_or_gt_of_ne hij with hl | hl
  · exact h i j hi hj hl
  · exact hs _ _ (h j i hj hi hl)

/-- Squared distance at least `c`. -/
def Off (c : ℝ) (p q : Vec3) : Prop := c ≤ (p 0 - q 0) ^ 2 + (p 1 - q 1) ^ 2 + (p 2 - q 2) ^ 2

theorem Off.symm {c : ℝ} (p q : Vec3) (h : Off c p q) : Off c q p := by
  unfold Off at *; nlinarith

/-- A setup of equal spheres of radius 1 only. -/
theorem spread_spheres {κ : ℝ} {r : SetupRows} (h1 : ∀ a ∈ r.sphere_sizes, a = 1)
    (hl : r.sphere_positions.length = r.sphere_sizes.length) (hd : r.dumbbell_sizes = [])
    (h : r.sphere_positions.Pairwise (Off (κ ^ 2))) : Spread κ r.config.P := by
  have hd' : r.config.P.Nd = 0 := by simp [SetupRows.config, hd]
  have hs : ∀ i < r.config.P.Ns, r.config.P.sphereSize i = 1 := by
    intro i hi
    have hi' : i < r.sphere_sizes.length := hi
    show r.sphere_sizes.getD i 0 = 1
    rw [getD_eq hi']; exact h1 _ (List.getElem_mem _)
  refine spread_of ?_ ?_ ?_ ?_
  · intro i hi j hj hij
    rw [hs i hi, hs j hj]
    refine gap_of_sq ?_
    have hi' : i < r.sphere_positions.length := by rw [hl]; exact hi
    have hj' : j < r.sphere_positions.length := by rw [hl]; exact hj
    have := pairwise_getD (d := 0) Off.symm h hi' hj' hij
    refine le_trans (le_of_eq ?_) this
    ring
  · intro i _ j hj; omega
  · intro i hi; omega
  · intro i hi; omega

/-- A row of equally spaced spheres. -/
theorem row_off {κ s : ℝ} (hκ : 0 ≤ κ) (h : κ ≤ s) (t z : ℝ) (n : ℕ) :
    ((List.range n).map fun (i : ℕ) => (![s * i - t, 0, z] : Vec3)).Pairwise (Off (κ ^ 2)) := by
  rw [List.pairwise_map]
  refine List.Pairwise.imp ?_ List.pairwise_lt_range
  intro i j hij
  have e : (1 : ℝ) ≤ (j : ℝ) - i := by
    have : (i : ℝ) + 1 ≤ j := by exact_mod_cast hij
    linarith
  have h2 : κ ≤ s * ((j : ℝ) - i) := by
    nlinarith
  show κ ^ 2 ≤ (s * i - t - (s * j - t)) ^ 2 + (0 - 0) ^ 2 + (z - z) ^ 2
  have : s * i - t - (s * j - t) = -(s * ((j : ℝ) - i)) := by ring
  rw [this]
  nlinarith

/-- Two rows on different heights. -/
theorem rows_off {c s t z z' : ℝ} (h : c ≤ (z - z') ^ 2) {n n' : ℕ} :
    ∀ p ∈ (List.range n).map fun (i : ℕ) => (![s * i - t, 0, z] : Vec3),
    ∀ q ∈ (List.range n').map fun (i : ℕ) => (![s * i - t, 0, z'] : Vec3), Off c p q := by
  intro p hp q hq
  obtain ⟨i, -, rfl⟩ := List.mem_map.1 hp
  obtain ⟨j, -, rfl⟩ := List.mem_map.1 hq
  show c ≤ (s * i - t - (s * j - t)) ^ 2 + (0 - 0) ^ 2 + (z - z') ^ 2
  nlinarith [sq_nonneg (s * i - t - (s * j - t))]

theorem spread1 : Spread 4 setup1.config.P := by
  refine spread_spheres (by simp [setup1]) (by simp [setup1]) rfl ?_
  have := row_off (κ := 4) (s := 4) (by norm_num) le_rfl 0 0 15
  simpa [setup1] using this

theorem spread2 : Spread 5 setup2.config.P := by
  refine spread_spheres (by simp [setup2]) (by simp [setup2]) rfl ?_
  simp only [setup2, List.pairwise_cons, List.mem_cons, List.not_mem_nil, or_false, forall_eq_or_imp, forall_eq, Off]
  refine ⟨⟨?_, ?_⟩, ?_, ?_⟩ <;> simp <;> norm_num

theorem cube_off (s : ℝ) : (simple_cubic_8 s).Pairwise (Off ((s / 2) ^ 2)) := by
  simp only [simple_cubic_8, List.flatMap_cons, List.flatMap_nil, List.map_cons, List.map_nil, List.append_nil,
    List.cons_append, List.nil_append, List.pairwise_cons, List.mem_cons, List.not_mem_nil, or_false,
    forall_eq_or_imp, forall_eq, Off]
  have := sq_nonneg s
  have e : ∀ a b c : ℝ, (![a, b, c] : Vec3) 2 = c := fun _ _ _ => rfl
  simp only [Matrix.cons_val_zero, Matrix.cons_val_one, e]
  refine ⟨⟨?_, ?_, ?_, ?_, ?_, ?_, ?_⟩, ⟨?_, ?_, ?_, ?_, ?_, ?_⟩, ⟨?_, ?_, ?_, ?_, ?_⟩, ⟨?_, ?_, ?_, ?_⟩,
    ⟨?_, ?_, ?_⟩, ⟨?_, ?_⟩, ?_, ?_⟩ <;> first | nlinarith | simp

theorem spread3 : Spread 4 setup3.config.P := by
  refine spread_spheres (by simp [setup3]) (by simp [setup3, simple_cubic_8]) rfl ?_
  have := cube_off 8
  have e : ((8 : ℝ) / 2) ^ 2 = 4 ^ 2 := by norm_num
  rw [e] at this
  exact this

theorem spread7 : Spread 2.00001 setup7.config.P := by
  refine spread_spheres (by simp [setup7]) (by simp [setup7]) rfl ?_
  unfold setup7
  dsimp only
  rw [List.pairwise_append, List.pairwise_append]
  refine ⟨⟨row_off (by norm_num) le_rfl _ _ _, row_off (by norm_num) le_rfl _ _ _, rows_off (by norm_num)⟩, ?_, ?_⟩
  · have e : ∀ a b c : ℝ, (![a, b, c] : Vec3) 2 = c := fun _ _ _ => rfl
    simp only [List.flatMap_cons, List.flatMap_nil, List.map_cons, List.map_nil, List.append_nil,
      List.cons_append, List.nil_append, List.pairwise_cons, List.mem_cons, List.not_mem_nil, or_false,
      forall_eq_or_imp, forall_eq, Off, Matrix.cons_val_zero, Matrix.cons_val_one, e]
    norm_num
  · intro p hp q hq
    obtain ⟨x, -, hq⟩ := List.mem_flatMap.1 hq
    obtain ⟨z, hz, rfl⟩ := List.mem_map.1 hq
    have hz' : |z| ≤ 2.5 := by
      simp only [List.mem_cons, List.not_mem_nil, or_false] at hz
      rcases hz with rfl | rfl | rfl <;> norm_num [abs_of_pos]
    have hz2 := abs_le.1 hz'
    rcases List.mem_append.1 hp with hp | hp <;> obtain ⟨i, -, rfl⟩ := List.mem_map.1 hp
    · show _ ≤ (_ - x) ^ 2 + (0 - 0) ^ 2 + (-5 - z) ^ 2
      nlinarith [sq_nonneg (2.00001 * (i : ℝ) - (45 / 2 : ℕ) * 2.00001 - x)]
    · show _ ≤ (_ - x) ^ 2 + (0 - 0) ^ 2 + (5 - z) ^ 2
      nlinarith [sq_nonneg (2.00001 * (i : ℝ) - (45 / 2 : ℕ) * 2.00001 - x)]

end SD.Setup
