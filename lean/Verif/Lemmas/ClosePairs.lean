import Verif.Model.ClosePairs
import Verif.Lemmas.R2BEntry

/-!
# The neighbour search and the links it describes
-/

set_option autoImplicit false

namespace SD

open Spec

theorem close_mem {n : ℕ} {pos : ℕ → Vec3} {size : ℕ → ℝ} {k : ℝ} {p : ClosePair} :
    p ∈ close_particles n pos size k ↔
      p.i ≤ p.j ∧ p.j < n ∧ distanceOverAverage pos size p.i p.j < 2 * k ∧
      p.disp = (fun m => 2 * (pos p.j m - pos p.i m) / (size p.i + size p.j)) ∧
      p.dist = distanceOverAverage pos size p.i p.j ∧ p.ratio = size p.j / size p.i := by
  unfold close_particles
  simp only [List.mem_map, List.mem_filter, List.mem_flatMap, List.mem_range, decide_eq_true_eq]
  constructor
  · rintro ⟨⟨a, b⟩, ⟨⟨⟨a', ha', b', hb', e⟩, h1⟩, h2⟩, rfl⟩
    simp only [Prod.mk.injEq] at e
    obtain ⟨rfl, rfl⟩ := e
    exact ⟨h2, hb', h1, rfl, rfl, rfl⟩
  · rintro ⟨h1, h2, h3, h4, h5, h6⟩
    refine ⟨(p.i, p.j), ⟨⟨⟨p.i, by omega, p.j, h2, rfl⟩, h3⟩, h1⟩, ?_⟩
    cases p
    simp_all

/-- The entry for two given beads. -/
noncomputable def closePair (pos : ℕ → Vec3) (size : ℕ → ℝ) (a b : ℕ) : ClosePair :=
  ⟨a, b, fun m => 2 * (pos b m - pos a m) / (size a + size b), distanceOverAverage pos size a b,
    size b / size a⟩

theorem closePair_mem {n : ℕ} {pos : ℕ → Vec3} {size : ℕ → ℝ} {k : ℝ} {a b : ℕ} (hab : a ≤ b)
    (hb : b < n) (h : distanceOverAverage pos size a b < 2 * k) :
    closePair pos size a b ∈ close_particles n pos size k :=
  close_mem.mpr ⟨hab, hb, h, rfl, rfl, rfl⟩

/-- Pairs in row order. -/
def RowOrder (p q : ClosePair) : Prop := p.i < q.i ∨ (p.i = q.i ∧ p.j < q.j)

theorem close_sorted (n : ℕ) (pos : ℕ → Vec3) (size : ℕ → ℝ) (k : ℝ) :
    (close_particles n pos size k).Pairwise RowOrder := by
  unfold close_particles
  dsimp only
  rw [List.pairwise_map]
  refine List.Pairwise.filter _ (List.Pairwise.filter _ ?_)
  rw [List.pairwise_flatMap]
  constructor
  · intro a _
    rw [List.pairwise_map]
    exact List.pairwise_lt_range.imp fun h => Or.inr ⟨rfl, h⟩
  · refine List.pairwise_lt_range.imp ?_
    intro a b hab x hx y hy
    obtain ⟨u, -, rfl⟩ := List.mem_map.mp hx
    obtain ⟨v, -, rfl⟩ := List.mem_map.mp hy
    exact Or.inl hab

theorem distance_eq (pos : ℕ → Vec3) (size : ℕ → ℝ) (a b : ℕ) :
    distanceOverAverage pos size a b = len (fun m => pos b m - pos a m) / ((size a + size b) / 2) := by
  unfold distanceOverAverage averageSize
  rw [norm3_eq_len, show pos a - pos b = -(fun m => pos b m - pos a m) by funext m; simp, len_neg]
  congr 1; ring

theorem unit_dotp {r : Vec3} (h : 0 < len r) : dotp (fun i => r i / len r) (fun i => r i / len r) = 1 := by
  have h2 : len r * len r = r 0 * r 0 + r 1 * r 1 + r 2 * r 2 := by
    unfold len
    rw [Real.mul_self_sqrt (Finset.sum_nonneg fun _ _ => sq_nonneg _), Fin.sum_univ_three]; ring
  unfold dotp
  have : ∀ i, r i / len r * (r i / len r) = r i * r i / (len r * len r) := fun i => by
    field_simp
  rw [this, this, this, ← add_div, ← add_div, ← h2]
  exact div_self (by positivity)

/-- The pair list of the neighbour search describes the neighbours of an unbounded domain. -/
theorem close_links {n : ℕ} {pos : ℕ → Vec3} {size : ℕ → ℝ} {k : ℝ} (hk : 0 < k)
    (h0 : ∀ x < n, 0 < size x)
    (hap : ∀ x < n, ∀ y < n, x ≠ y → 0 < len fun i => pos x i - pos y i) :
    Links n size (close_particles n pos size k) (openLink k pos size) := by
  have swap : ∀ x y, len (fun i => pos x i - pos y i) = len fun i => pos y i - pos x i := by
    intro x y
    rw [show (fun i => pos x i - pos y i) = -(fun m => pos y m - pos x m) by funext m; simp, len_neg]
  have dd : ∀ p ∈ close_particles n pos size k, p.i ≠ p.j → ∀ m, p.disp m / p.dist
      = (pos p.j m - pos p.i m) / len fun i => pos p.j i - pos p.i i := by
    intro p hp hne m
    obtain ⟨h1, h2, h3, h4, h5, h6⟩ := close_mem.mp hp
    rw [h4, h5, distance_eq]
    have a := h0 p.i (by omega)
    have b := h0 p.j (by omega)
    have c := hap p.j (by omega) p.i (by omega) hne.symm
    dsimp only
    field_simp
  constructor
  · intro p hp
    have := close_mem.mp hp
    exact ⟨this.1, this.2.1⟩
  · intro x hx
    refine ⟨closePair pos size x x, closePair_mem le_rfl hx ?_, rfl, rfl⟩
    rw [distance_eq]
    simp only [sub_self]
    rw [show len (fun _ => (0 : ℝ)) = 0 from len_zero]
    simpa using hk
  · refine (close_sorted n pos size k).imp ?_
    rintro p q h ⟨h1, h2⟩
    unfold RowOrder at h
    omega
  · intro p hp; exact (close_mem.mp hp).2.2.2.2.2
  · intro p hp hne
    obtain ⟨h1, h2, h3, h4, h5, h6⟩ := close_mem.mp hp
    unfold openLink
    dsimp only
    rw [distance_eq] at h3 h5
    rw [if_pos h3, h5]
    congr 2
    funext m
    rw [← dd p hp hne m, h5]
  · intro p hp hne
    obtain ⟨h1, h2, h3, h4, h5, h6⟩ := close_mem.mp hp
    unfold openLink
    dsimp only
    rw [distance_eq] at h3 h5
    rw [swap, add_comm, if_pos h3, ← h5]
    congr 2
    funext m
    rw [dd p hp hne m, ← neg_div, neg_sub]
  · intro x hx y hy hne hn
    unfold openLink
    dsimp only
    rw [if_neg]
    intro hlt
    rcases Nat.lt_or_gt_of_ne hne with h | h
    · refine hn (closePair pos size x y) (closePair_mem h.le hy ?_) (Or.inl ⟨rfl, rfl⟩)
      rw [distance_eq]; exact hlt
    · refine hn (closePair pos size y x) (closePair_mem h.le hx ?_) (Or.inr ⟨rfl, rfl⟩)
      rw [distance_eq, swap, add_comm]; exact hlt
  · intro p hp hne
    have h := dd p hp hne
    simp only [h]
    obtain ⟨h1, h2, -⟩ := close_mem.mp hp
    exact unit_dotp (hap p.j (by omega) p.i (by omega) hne.symm)

/-! ## Table lookup of the size ratio -/

theorem lamIndex_ne_none {T : ScalarTable} {lam : ℝ} :
    lamIndex T lam ≠ none ↔ ∃ t ∈ T.lam, |t - lam| ≤ 1 / 10 ^ 8 + 1 / 10 ^ 5 * |lam| := by
  unfold lamIndex
  rw [Ne, List.findIdx?_eq_none_iff]
  push Not
  simp [isclose]

theorem foldlM_none {α β : Type} (f : β → α → Option β) (l : List α) (a : α) (ha : a ∈ l)
    (h : ∀ b, f b a = none) (b : β) : l.foldlM f b = none := by
  induction l generalizing b with
  | nil => simp at ha
  | cons c l ih =>
    rw [List.foldlM_cons]
    rcases List.mem_cons.mp ha with rfl | ha
    · rw [h b]; rfl
    · cases hc : f b c with
      | none => rfl
      | some d => exact ih ha d

/-! ## `np.interp` -/

theorem filter_prefix {l : List ℝ} (hl : l.Pairwise (· < ·)) {x : ℝ} {k : ℕ} (hk : k < l.length)
    (h1 : l.getD k 0 ≤ x) (h2 : k + 1 < l.length → x < l.getD (k + 1) 0) :
    (l.filter fun v => decide (v ≤ x)).length = k + 1 := by
  have e : l = l.take (k + 1) ++ l.drop (k + 1) := (List.take_append_drop _ _).symm
  have g : ∀ i (h : i < l.length), l.getD i 0 = l[i] := fun i h => by
    rw [List.getD_eq_getElem?_getD, List.getElem?_eq_getElem h]; rfl
  have mono : ∀ i j (hi : i < l.length) (hj : j < l.length), i < j → l[i] < l[j] :=
    fun i j hi hj hij => List.pairwise_iff_getElem.mp hl i j hi hj hij
  conv_lhs => rw [e]
  rw [List.filter_append, List.filter_eq_self.mpr, List.filter_eq_nil_iff.mpr, List.append_nil,
    List.length_take]
  · omega
  · intro v hv
    obtain ⟨i, hi, rfl⟩ := List.getElem_of_mem hv
    rw [List.length_drop] at hi
    rw [List.getElem_drop]
    have h3 := h2 (by omega)
    rw [g _ (by omega)] at h3
    simp only [decide_eq_true_eq, not_le]
    rcases Nat.eq_zero_or_pos i with rfl | hi0
    · exact h3
    · exact h3.trans (mono _ _ _ _ (by omega))
  · intro v hv
    obtain ⟨i, hi, rfl⟩ := List.getElem_of_mem hv
    rw [List.length_take] at hi
    rw [List.getElem_take]
    rw [g _ hk] at h1
    simp only [decide_eq_true_eq]
    rcases Nat.lt_or_ge i k with h | h
    · exact (mono _ _ _ _ h).le.trans h1
    · have : i = k := by omega
      subst this; exact h1

theorem interp_inside {l : List ℝ} (hl : l.Pairwise (· < ·)) (f : ℕ → ℝ) {x : ℝ} {k : ℕ}
    (hk : k + 1 < l.length) (h1 : l.getD k 0 ≤ x) (h2 : x ≤ l.getD (k + 1) 0) :
    npInterp x l f = f k + (f (k + 1) - f k) * ((x - l.getD k 0) / (l.getD (k + 1) 0 - l.getD k 0)) := by
  have g : ∀ i (h : i < l.length), l.getD i 0 = l[i] := fun i h => by
    rw [List.getD_eq_getElem?_getD, List.getElem?_eq_getElem h]; rfl
  have mono : ∀ i j, i < j → j < l.length → l.getD i 0 < l.getD j 0 := by
    intro i j hij hj
    rw [g i (by omega), g j hj]
    exact List.pairwise_iff_getElem.mp hl i j (by omega) hj hij
  have mono' : ∀ i j, i ≤ j → j < l.length → l.getD i 0 ≤ l.getD j 0 := by
    intro i j hij hj
    rcases Nat.lt_or_ge i j with h | h
    · exact (mono i j h hj).le
    · rw [show i = j by omega]
  have hgap := mono k (k + 1) (by omega) hk
  unfold npInterp
  dsimp only
  rw [if_neg (not_lt.mpr ((mono' 0 k (by omega) (by omega)).trans h1))]
  rcases lt_or_eq_of_le h2 with h2 | h2
  · rw [if_neg (not_le.mpr (h2.trans_le (mono' _ _ (by omega) (by omega)))),
      filter_prefix hl (by omega) h1 (fun _ => h2)]
    simp only [Nat.add_sub_cancel]
    ring
  · have e : (x - l.getD k 0) / (l.getD (k + 1) 0 - l.getD k 0) = 1 := by
      rw [h2]; exact div_self (by linarith)
    rw [e]
    by_cases hlast : k + 2 = l.length
    · rw [if_pos (by rw [h2]; exact mono' _ _ (by omega) (by omega))]
      rw [show l.length - 1 = k + 1 by omega]; ring
    · rw [if_neg (not_le.mpr (by rw [h2]; exact mono _ _ (by omega) (by omega))),
        filter_prefix hl hk h2.ge (fun h => by rw [h2]; exact mono _ _ (by omega) h)]
      simp only [Nat.add_sub_cancel, h2, sub_self, mul_zero, zero_add]
      ring

theorem interp_left {l : List ℝ} (hl : l.Pairwise (· < ·)) (hne : l ≠ []) (f : ℕ → ℝ) {x : ℝ}
    (h : x ≤ l.getD 0 0) : npInterp x l f = f 0 := by
  rcases lt_or_eq_of_le h with h | h
  · unfold npInterp; dsimp only; rw [if_pos h]
  · have hlen : 0 < l.length := List.length_pos_iff.mpr hne
    by_cases h1 : l.length = 1
    · unfold npInterp; dsimp only
      rw [if_neg (by rw [h]; exact lt_irrefl _), h1, if_pos h.ge]
    · rw [interp_inside hl f (k := 0) (by omega) h.ge]
      · rw [h]; simp
      · rw [h]
        have g : ∀ i (h : i < l.length), l.getD i 0 = l[i] := fun i h => by
          rw [List.getD_eq_getElem?_getD, List.getElem?_eq_getElem h]; rfl
        rw [g 0 (by omega), g 1 (by omega)]
        exact (List.pairwise_iff_getElem.mp hl 0 1 (by omega) (by omega) (by omega)).le

theorem interp_right {l : List ℝ} (hl : l.Pairwise (· < ·)) (hne : l ≠ []) (f : ℕ → ℝ) {x : ℝ}
    (h : l.getD (l.length - 1) 0 ≤ x) : npInterp x l f = f (l.length - 1) := by
  have hlen : 0 < l.length := List.length_pos_iff.mpr hne
  unfold npInterp
  dsimp only
  rw [if_neg, if_pos h]
  rw [not_lt]
  refine le_trans ?_ h
  have g : ∀ i (h : i < l.length), l.getD i 0 = l[i] := fun i h => by
    rw [List.getD_eq_getElem?_getD, List.getElem?_eq_getElem h]; rfl
  rw [g 0 (by omega), g _ (by omega)]
  rcases Nat.lt_or_ge 0 (l.length - 1) with h3 | h3
  · exact (List.pairwise_iff_getElem.mp hl 0 (l.length - 1) (by omega) (by omega) h3).le
  · exact le_of_eq (by congr 1; omega)

end SD
