import Verif.Props.LubricationFlow
import Verif.Props.NearField

/-!
# The near-field table (C46)
-/

set_option autoImplicit false

namespace SD

open Spec Nearfield

/-- No two different entries are close enough to be taken for each other. -/
def Separated (lams : List ℝ) : Prop :=
  ∀ t ∈ lams, ∀ u ∈ lams, |t - u| ≤ 1 / 10 ^ 8 + 1 / 10 ^ 5 * |u| → t = u

theorem lamIndex_separated {T : ScalarTable} (h : Separated T.lam) {lam : ℝ} (hm : lam ∈ T.lam) :
    ∃ l, lamIndex T lam = some l ∧ l < T.lam.length ∧ T.lam.getD l 0 = lam := by
  have hne : lamIndex T lam ≠ none := lamIndex_ne_none.mpr ⟨lam, hm, by rw [sub_self, abs_zero]; positivity⟩
  obtain ⟨l, hl⟩ := Option.ne_none_iff_exists'.mp hne
  obtain ⟨hlt, hc, -⟩ := ((C22_ratio T lam).1 l).mp hl
  refine ⟨l, hl, hlt, ?_⟩
  rw [List.getD_eq_getElem _ _ hlt]
  exact h _ (List.getElem_mem hlt) _ hm hc

theorem mem_with_reciprocals (lams : List ℝ) (y : ℝ) :
    y ∈ with_reciprocals lams ↔ y ∈ lams ∨ 1 / y ∈ lams := by
  classical
  unfold with_reciprocals
  rw [(List.mergeSort_perm _ _).mem_iff, List.mem_append, List.mem_filter, List.mem_map]
  constructor
  · rintro (h | ⟨⟨x, hx, rfl⟩, -⟩)
    · exact .inl h
    · right; rwa [one_div_one_div]
  · rintro (h | h)
    · exact .inl h
    · by_cases hy : y ∈ lams
      · exact .inl hy
      · exact .inr ⟨⟨_, h, one_div_one_div y⟩, by simpa using hy⟩

/-- **C46** (table). At each tabulated distance and size ratio, the simulation reads from the near-field table
the functions it is named after. -/
theorem C46_nodes {ss lams : List ℝ} (hs : ss.Pairwise (· < ·)) {n l : ℕ} (hn : n < ss.length) :
    scalarsAt (nearfield_table ss lams) 0 (ss.getD n 0) l
        = nfOwn (ss.getD n 0 - 2) ((with_reciprocals lams).getD l 0) ∧
      scalarsAt (nearfield_table ss lams) 1 (ss.getD n 0) l
        = nfOther (ss.getD n 0 - 2) ((with_reciprocals lams).getD l 0) := by
  have hne : ss ≠ [] := by rintro rfl; simp at hn
  have e : ∀ k g, XYZ (nearfield_table ss lams) k g (ss.getD n 0) l = (nearfield_table ss lams).raw k g n l :=
    fun k g => (C22_interp hs hne _).1 n hn
  constructor
  · unfold scalarsAt nfOwn
    simp only [e]
    rfl
  · unfold scalarsAt nfOther
    simp only [e]
    rfl

theorem XYZ_smul {T : ScalarTable} {k g l l' : ℕ} {c c' : ℝ} (s : ℝ)
    (h : ∀ n, c * T.raw k g n l = c' * T.raw k g n l') : c * XYZ T k g s l = c' * XYZ T k g s l' := by
  unfold XYZ
  rw [← npInterp_smul, ← npInterp_smul]
  simp only [h]

/-- **C46** (reciprocal table). The columns of the near-field table for the ratios `b / a` and `a / b` obey the
reciprocal theorem at every distance, tabulated or not. -/
theorem C46_columns {ss lams : List ℝ} {l l' : ℕ} {a b : ℝ} (ha : 0 < a) (hb : 0 < b)
    (h : (with_reciprocals lams).getD l 0 = b / a) (h' : (with_reciprocals lams).getD l' 0 = a / b) (s : ℝ) :
    Reciprocal (scalarsAt (nearfield_table ss lams) 1 s l) (scalarsAt (nearfield_table ss lams) 1 s l') a b := by
  have key := fun n => C46_reciprocal ha hb (ss.getD n 0 - 2)
  constructor <;> refine XYZ_smul s fun n => ?_ <;>
    simp only [nearfield_table, scalar_functions, h, h']
  exacts [(key n).XA, (key n).YA, (key n).XC, (key n).YC, (key n).XM, (key n).YM, (key n).ZM]

/-- **C46** (lookups in the table). For spheres whose size ratio was asked for, either way round, the scalars
looked up for the pair `(a, b)` and for `(b, a)` obey the reciprocal theorem, if no two of the tabulated ratios
are so close that the lookup could confuse them. -/
theorem C46_lookup {ss lams : List ℝ} (hsep : Separated (with_reciprocals lams)) {a b : ℝ} (ha : 0 < a)
    (hb : 0 < b) (hab : b / a ∈ lams ∨ a / b ∈ lams) (s : ℝ) :
    Reciprocal (tableScal (nearfield_table ss lams) 1 (b / a) s) (tableScal (nearfield_table ss lams) 1 (a / b) s)
      a b := by
  have e1 : 1 / (b / a) = a / b := one_div_div b a
  have e2 : 1 / (a / b) = b / a := one_div_div a b
  have m1 : b / a ∈ with_reciprocals lams := by rw [mem_with_reciprocals, e1]; exact hab
  have m2 : a / b ∈ with_reciprocals lams := by rw [mem_with_reciprocals, e2]; exact hab.symm
  obtain ⟨l, h1, -, h2⟩ := lamIndex_separated (T := nearfield_table ss lams) hsep m1
  obtain ⟨l', h3, -, h4⟩ := lamIndex_separated (T := nearfield_table ss lams) hsep m2
  unfold tableScal
  rw [h1, h3]
  exact C46_columns ha hb h2 h4 s

/-- The ratios the script is shipped with. -/
example {a b : ℝ} (ha : 0 < a) (hb : 0 < b) (hab : b / a = 10) (s : ℝ) :
    Reciprocal (tableScal (nearfield_table [2.001, 2.002] [1, 10, 100]) 1 (b / a) s)
      (tableScal (nearfield_table [2.001, 2.002] [1, 10, 100]) 1 (a / b) s) a b := by
  refine C46_lookup ?_ ha hb (.inl (by simp [hab])) s
  have hm : ∀ y : ℝ, y ∈ with_reciprocals [1, 10, 100] → y = 1 ∨ y = 10 ∨ y = 100 ∨ y = 1 / 10 ∨ y = 1 / 100 := by
    intro y hy
    rw [mem_with_reciprocals] at hy
    simp only [List.mem_cons, List.not_mem_nil, or_false] at hy
    have e : ∀ c : ℝ, 1 / y = c → y = 1 / c := by rintro c rfl; simp
    rcases hy with (h | h | h) | h | h | h
    · simp [h]
    · simp [h]
    · simp [h]
    · left; simpa using e _ h
    · right; right; right; left; exact e _ h
    · right; right; right; right; exact e _ h
  intro t ht u hu h
  rcases hm t ht with rfl | rfl | rfl | rfl | rfl <;> rcases hm u hu with rfl | rfl | rfl | rfl | rfl <;>
    first
      | rfl
      | (exfalso; norm_num [abs_of_pos, abs_of_neg] at h)

end SD
