import Verif.Model.Startup
import Verif.Spec.Startup
import Verif.Props.NearField

/-!
C38 (command line), C39 (checks before a run), C40 (table of size ratios), C47 (choice of scalar file).
-/

set_option autoImplicit false

namespace SD

open Spec

/-! ## C38 -/

theorem readArguments_iff (pf : String → Option ℝ) (args : List String) (D S : CliSettings) :
    readArguments pf args D = some S ↔
      Overrides args 0 pyInt D.setup_number S.setup_number ∧
      Overrides args 1 pyInt D.input_number S.input_number ∧
      Overrides args 2 pf D.timestep S.timestep ∧
      Overrides args 3 pyInt D.num_frames S.num_frames ∧
      Overrides args 4 some D.input_form S.input_form ∧
      Overrides args 5 (fun a => some (["True", "true", "t", "T", "1"].contains a)) D.extract S.extract := by
  obtain ⟨a1, a2, a3, a4, a5, a6⟩ := S
  obtain ⟨d1, d2, d3, d4, d5, d6⟩ := D
  rcases args with _ | ⟨a, _ | ⟨b, _ | ⟨c, _ | ⟨d, _ | ⟨e, _ | ⟨f, r⟩⟩⟩⟩⟩⟩ <;>
    simp only [readArguments, Overrides, Option.bind_eq_bind, List.length_cons, List.length_nil,
      List.getElem?_cons_zero, List.getElem?_cons_succ, List.getElem?_nil] <;>
    simp [Option.bind_eq_some_iff] <;> grind

/-- **C38** for the first five settings. The settings of a run: each argument that is given replaces its
own setting, each omitted one leaves the default. Missing: the sixth argument, which is read
(`C38_sixth_read`) but then lost (`C38_sixth_lost`). -/
theorem C38_overrides_partial (pf : String → Option ℝ) (args : List String) {S : CliSettings}
    (h : settingsOf pf args = some S) :
    Overrides args 0 pyInt 1 S.setup_number ∧
    Overrides args 1 pyInt 1 S.input_number ∧
    Overrides args 2 pf (1 / 10) S.timestep ∧
    Overrides args 3 pyInt 100 S.num_frames ∧
    Overrides args 4 some "fte" S.input_form := by
  unfold settingsOf at h
  rw [Option.map_eq_some_iff] at h
  obtain ⟨S', h1, rfl⟩ := h
  obtain ⟨b1, b2, b3, b4, b5, -⟩ := (readArguments_iff pf args _ _).mp h1
  exact ⟨b1, b2, b3, b4, b5⟩

theorem overrides_exists {α : Type} (args : List String) (k : ℕ) (parse : String → Option α) (d : α) :
    (∃ v, Overrides args k parse d v) ↔ ¬ Malformed args k parse := by
  unfold Overrides Malformed
  cases h : args[k]? with
  | none => simp
  | some a =>
    cases h' : parse a with
    | none => simp [h']
    | some v => simp [h']

/-- **C38** (malformed numbers). The program stops with the usage error exactly when one of the four numbers
is given but is not a number. -/
theorem C38_malformed (pf : String → Option ℝ) (args : List String) :
    settingsOf pf args = none ↔
      Malformed args 0 pyInt ∨ Malformed args 1 pyInt ∨ Malformed args 2 pf ∨ Malformed args 3 pyInt := by
  rw [← not_iff_not, ← ne_eq, Option.ne_none_iff_exists']
  simp only [not_or]
  constructor
  · rintro ⟨S, h⟩
    obtain ⟨b1, b2, b3, b4, -⟩ := C38_overrides_partial pf args h
    exact ⟨(overrides_exists _ _ _ _).mp ⟨_, b1⟩, (overrides_exists _ _ _ _).mp ⟨_, b2⟩,
      (overrides_exists _ _ _ _).mp ⟨_, b3⟩, (overrides_exists _ _ _ _).mp ⟨_, b4⟩⟩
  · rintro ⟨h1, h2, h3, h4⟩
    obtain ⟨v1, h1⟩ := (overrides_exists _ _ _ 1).mpr h1
    obtain ⟨v2, h2⟩ := (overrides_exists _ _ _ 1).mpr h2
    obtain ⟨v3, h3⟩ := (overrides_exists _ _ _ (1 / 10)).mpr h3
    obtain ⟨v4, h4⟩ := (overrides_exists _ _ _ 100).mpr h4
    obtain ⟨v5, h5⟩ := (overrides_exists args 4 some "fte").mpr (by simp [Malformed])
    obtain ⟨v6, h6⟩ := (overrides_exists args 5
      (fun a => some (["True", "true", "t", "T", "1"].contains a)) false).mpr (by simp [Malformed])
    have := (readArguments_iff pf args defaultSettings ⟨v1, v2, v3, v4, v5, v6⟩).mpr ⟨h1, h2, h3, h4, h5, h6⟩
    exact ⟨_, by unfold settingsOf; rw [this]; rfl⟩

/-- **C38** (sixth argument, as read). The force-extraction flag is first set by the sixth argument. -/
theorem C38_sixth_read (pf : String → Option ℝ) (args : List String) (D : CliSettings) {S : CliSettings} {a : String}
    (h : readArguments pf args D = some S) (ha : args[5]? = some a) : S.extract = true ↔ Yes a := by
  obtain ⟨-, -, -, -, -, b⟩ := (readArguments_iff pf args D S).mp h
  unfold Overrides at b
  rw [ha] at b
  rw [← Option.some.inj b]
  simp [Yes]

/-- **C38** fails for the sixth argument: whatever is given, the run does not extract forces. -/
theorem C38_sixth_lost (pf : String → Option ℝ) (args : List String) {S : CliSettings}
    (h : settingsOf pf args = some S) : S.extract = false := by
  unfold settingsOf at h
  rw [Option.map_eq_some_iff] at h
  obtain ⟨S', -, rfl⟩ := h
  rfl

theorem pyDigits_eq (l : List Char) (hl : ∀ c ∈ l, c.isDigit) (acc : ℕ) (p : Bool) (hp : l ≠ [] ∨ p = true) :
    readDigits acc p l = some (Nat.ofDigitChars 10 l acc) := by
  induction l generalizing acc p with
  | nil => simp_all [readDigits]
  | cons c cs ih =>
    rw [readDigits, if_pos (hl c (by simp)), ih (fun d hd => hl d (by simp [hd])) _ _ (.inr rfl),
      Nat.ofDigitChars_cons]
    rfl

theorem digit_not_space {c : Char} (h : c.isDigit) : pySpace c = false := by
  by_contra hc
  simp only [pySpace, Bool.not_eq_false, Bool.or_eq_true, decide_eq_true_eq] at hc
  rcases hc with ((((rfl | rfl) | rfl) | rfl) | rfl) | rfl <;> revert h <;> decide

theorem dropWhile_none {p : Char → Bool} {l : List Char} (h : ∀ c ∈ l, p c = false) : l.dropWhile p = l := by
  cases l with
  | nil => rfl
  | cons c cs => rw [List.dropWhile_cons, h c (by simp)]; simp

theorem strip_id {l : List Char} (h : ∀ c ∈ l, pySpace c = false) :
    ((l.dropWhile pySpace).reverse.dropWhile pySpace).reverse = l := by
  rw [dropWhile_none h, dropWhile_none (by simpa using h), List.reverse_reverse]

theorem pyInt_nat (n : ℕ) : pyInt (toString n) = some (n : ℤ) := by
  have hd : ∀ c ∈ Nat.toDigits 10 n, c.isDigit := fun c hc =>
    Nat.isDigit_of_mem_toDigits (by norm_num) (by norm_num) hc
  have e : (toString n).toList = Nat.toDigits 10 n := Nat.toList_repr
  unfold pyInt
  rw [e, strip_id (fun c hc => digit_not_space (hd c hc))]
  have hp := pyDigits_eq _ hd 0 false (.inl Nat.toDigits_ne_nil)
  rw [Nat.ofDigitChars_toDigits (by norm_num) (by norm_num)] at hp
  cases hl : Nat.toDigits 10 n with
  | nil => exact absurd hl Nat.toDigits_ne_nil
  | cons c cs =>
    have hc := hd c (by rw [hl]; simp)
    rw [hl] at hp
    unfold pySigned
    split
    · rename_i h; injection h with h1 h2; subst h1; exact absurd hc (by decide)
    · rename_i h; injection h with h1 h2; subst h1; exact absurd hc (by decide)
    · rw [hp]; rfl

theorem pyInt_negative (n : ℕ) : pyInt ("-" ++ toString n) = some (-(n : ℤ)) := by
  have hd : ∀ c ∈ Nat.toDigits 10 n, c.isDigit := fun c hc =>
    Nat.isDigit_of_mem_toDigits (by norm_num) (by norm_num) hc
  have e : ("-" ++ toString n).toList = '-' :: Nat.toDigits 10 n := by
    rw [String.toList_append, show (toString n).toList = Nat.toDigits 10 n from Nat.toList_repr]
    rfl
  unfold pyInt
  rw [e, strip_id ?_]
  · have hp := pyDigits_eq _ hd 0 false (.inl Nat.toDigits_ne_nil)
    rw [Nat.ofDigitChars_toDigits (by norm_num) (by norm_num)] at hp
    rw [pySigned, hp]; rfl
  · intro c hc
    rcases List.mem_cons.mp hc with rfl | hc
    · decide
    · exact digit_not_space (hd c hc)

/-- **C38** (well-formed numbers). Every whole number, written in decimals, is read as that number. -/
theorem C38_integers (n : ℤ) : pyInt (toString n) = some n := by
  cases n with
  | ofNat n => exact pyInt_nat n
  | negSucc n =>
    rw [show toString (Int.negSucc n) = "-" ++ toString (n + 1) from rfl, pyInt_negative]
    congr 1

theorem pyDigits_chars (l : List Char) (acc : ℕ) (p : Bool) {n : ℕ} (h : readDigits acc p l = some n) :
    ∀ c ∈ l, c.isDigit ∨ c = '_' := by
  induction l generalizing acc p with
  | nil => simp
  | cons c cs ih =>
    rw [readDigits] at h
    intro d hd
    by_cases hc : c.isDigit
    · rw [if_pos hc] at h
      rcases List.mem_cons.mp hd with rfl | hd
      · exact .inl hc
      · exact ih _ _ h d hd
    · rw [if_neg hc] at h
      by_cases hu : c = '_' ∧ p = true
      · rw [if_pos hu] at h
        rcases List.mem_cons.mp hd with rfl | hd
        · exact .inr hu.1
        · exact ih _ _ h d hd
      · rw [if_neg hu] at h; exact absurd h (by simp)

theorem mem_dropWhile {p : Char → Bool} {l : List Char} {c : Char} (hc : c ∈ l) (hp : p c = false) :
    c ∈ l.dropWhile p := by
  induction l with
  | nil => exact hc
  | cons d ds ih =>
    rw [List.dropWhile_cons]
    by_cases hd : p d
    · rw [if_pos hd]
      rcases List.mem_cons.mp hc with rfl | hc
      · simp [hp] at hd
      · exact ih hc
    · rw [if_neg hd]; exact hc

/-- **C38** (malformed numbers, continued). Text with a character that is not a digit, a sign, an underscore
or a space is not a whole number: for instance `1.5`, `1e3` or `fte`. -/
theorem C38_not_integers (s : String) {c : Char} (hc : c ∈ s.toList) (h1 : c.isDigit = false)
    (h2 : pySpace c = false) (h3 : c ≠ '-') (h4 : c ≠ '+') (h5 : c ≠ '_') : pyInt s = none := by
  have hm : c ∈ ((s.toList.dropWhile pySpace).reverse.dropWhile pySpace).reverse := by
    rw [List.mem_reverse]
    exact mem_dropWhile (by rw [List.mem_reverse]; exact mem_dropWhile hc h2) h2
  unfold pyInt
  generalize ((s.toList.dropWhile pySpace).reverse.dropWhile pySpace).reverse = l at hm
  have key : ∀ l' : List Char, c ∈ l' → readDigits 0 false l' = none := by
    intro l' hl
    by_contra h
    obtain ⟨n, h⟩ := Option.ne_none_iff_exists'.mp h
    rcases pyDigits_chars _ _ _ h c hl with h | h
    · simp [h1] at h
    · exact h5 h
  unfold pySigned
  split
  · rw [key _ ((List.mem_cons.mp hm).resolve_left h3)]; rfl
  · rw [key _ ((List.mem_cons.mp hm).resolve_left h4)]; rfl
  · rw [key _ hm]; rfl

/-- Three arguments. -/
example : settingsOf (fun _ => some 2) ["7", "-3", "2.0"] = some ⟨7, -3, 2, 100, "fte", false⟩ := by
  have h7 : pyInt "7" = some 7 := C38_integers 7
  have h3 : pyInt "-3" = some (-3) := pyInt_negative 3
  simp [settingsOf, readArguments, defaultSettings, h7, h3]

/-- Six arguments: the last one asks for forces to be extracted, but they are not. -/
example : ∃ S, settingsOf (fun _ => some 2) ["7", "-3", "2.0", "50", "ufte", "True"] = some S ∧
    S.input_form = "ufte" ∧ S.num_frames = 50 ∧ S.extract = false := by
  have h7 : pyInt "7" = some 7 := C38_integers 7
  have h3 : pyInt "-3" = some (-3) := pyInt_negative 3
  have h5 : pyInt "50" = some 50 := C38_integers 50
  exact ⟨⟨7, -3, 2, 50, "ufte", false⟩, by simp [settingsOf, readArguments, defaultSettings, h7, h3, h5]⟩

example : settingsOf (fun _ => some 2) ["1", "2.5"] = none :=
  (C38_malformed _ _).mpr (.inr (.inl ⟨"2.5", rfl,
    C38_not_integers "2.5" (c := '.') (by simp) (by decide) (by decide) (by decide) (by decide) (by decide)⟩))

/-! ## C40 -/

open Classical in
theorem addReciprocals_fold (l acc : List ℝ) :
    ∃ ext, l.foldl (fun acc lam => if 1 / lam ∈ acc then acc else acc ++ [1 / lam]) acc = acc ++ ext ∧
      ext.Nodup ∧ (∀ y ∈ ext, y ∉ acc ∧ ∃ x ∈ l, y = 1 / x) ∧ ∀ x ∈ l, 1 / x ∈ acc ++ ext := by
  induction l generalizing acc with
  | nil => exact ⟨[], by simp⟩
  | cons x xs ih =>
    rw [List.foldl_cons]
    by_cases hx : 1 / x ∈ acc
    · rw [if_pos hx]
      obtain ⟨ext, h1, h2, h3, h4⟩ := ih acc
      refine ⟨ext, h1, h2, fun y hy => ⟨(h3 y hy).1, ?_⟩, ?_⟩
      · obtain ⟨z, hz, e⟩ := (h3 y hy).2
        exact ⟨z, by simp [hz], e⟩
      · intro z hz
        rcases List.mem_cons.mp hz with rfl | hz
        · exact List.mem_append_left _ hx
        · exact h4 z hz
    · rw [if_neg hx]
      obtain ⟨ext, h1, h2, h3, h4⟩ := ih (acc ++ [1 / x])
      refine ⟨1 / x :: ext, by rw [h1]; simp, ?_, ?_, ?_⟩
      · rw [List.nodup_cons]
        exact ⟨fun h => (h3 _ h).1 (by simp), h2⟩
      · intro y hy
        rcases List.mem_cons.mp hy with rfl | hy
        · exact ⟨hx, x, by simp, rfl⟩
        · refine ⟨fun h => (h3 y hy).1 (List.mem_append_left _ h), ?_⟩
          obtain ⟨z, hz, e⟩ := (h3 y hy).2
          exact ⟨z, by simp [hz], e⟩
      · intro z hz
        rcases List.mem_cons.mp hz with rfl | hz
        · simp
        · have := h4 z hz
          simpa using this

/-- **C40**. The table for any list of positive tabulated ratios: it is in ascending order, it contains
exactly the tabulated ratios and their reciprocals, and every entry occurs once, or as often as it was
tabulated. -/
theorem C40_table (lams : List ℝ) (hpos : ∀ x ∈ lams, 0 < x) :
    (lamRangeWithReciprocals lams).Pairwise (· ≤ ·) ∧
    (∀ y, y ∈ lamRangeWithReciprocals lams ↔ y ∈ lams ∨ 1 / y ∈ lams) ∧
    (∀ y ∈ lamRangeWithReciprocals lams, 0 < y ∧
      (lamRangeWithReciprocals lams).count y = max 1 (lams.count y)) := by
  obtain ⟨ext, h1, h2, h3, h4⟩ := addReciprocals_fold lams lams
  have hp : (lamRangeWithReciprocals lams).Perm (lams ++ ext) := by
    unfold lamRangeWithReciprocals addReciprocals
    rw [h1]; exact List.mergeSort_perm _ _
  have hmem : ∀ y, y ∈ lamRangeWithReciprocals lams ↔ y ∈ lams ∨ 1 / y ∈ lams := by
    intro y
    rw [hp.mem_iff, List.mem_append]
    constructor
    · rintro (h | h)
      · exact .inl h
      · obtain ⟨-, x, hx, rfl⟩ := h3 y h
        right; rwa [one_div_one_div]
    · rintro (h | h)
      · exact .inl h
      · have := h4 _ h
        rwa [one_div_one_div, List.mem_append] at this
  refine ⟨?_, hmem, ?_⟩
  · have := List.pairwise_mergeSort (le := fun a b : ℝ => decide (a ≤ b))
      (fun a b c => by simp; exact le_trans) (fun a b => by simp; exact le_total a b) (addReciprocals lams)
    simpa [lamRangeWithReciprocals] using this
  · intro y hy
    refine ⟨?_, ?_⟩
    · rcases (hmem y).mp hy with h | h
      · exact hpos y h
      · exact one_div_pos.mp (hpos _ h)
    · rw [hp.count_eq, List.count_append]
      by_cases hyl : y ∈ lams
      · have : y ∉ ext := fun h => (h3 y h).1 hyl
        rw [List.count_eq_zero.mpr this, add_zero]
        exact (max_eq_right (List.one_le_count_iff.mpr hyl)).symm
      · have : y ∈ ext := by
          rcases List.mem_append.mp (hp.mem_iff.mp hy) with h | h
          · exact absurd h hyl
          · exact h
        rw [List.count_eq_zero.mpr hyl, List.count_eq_one_of_mem h2 this]
        simp

/-- **C40** (closed). A ratio is in the table exactly when its reciprocal is. -/
theorem C40_closed (lams : List ℝ) (hpos : ∀ x ∈ lams, 0 < x) (y : ℝ) :
    y ∈ lamRangeWithReciprocals lams ↔ 1 / y ∈ lamRangeWithReciprocals lams := by
  rw [(C40_table lams hpos).2.1, (C40_table lams hpos).2.1, one_div_one_div, or_comm]

/-- **C40** (lookups), with a margin. If the ratio of the sizes `a`, `b` is in the table to a relative
accuracy of 9.9e-6, both `(a, b)` and `(b, a)` are found. Missing: ratios at the very edge of the tolerance
(1e-5 and a bit), where only one of the two may be found (`C40_edge`). -/
theorem C40_swap_partial {T : ScalarTable} {lams : List ℝ} (hpos : ∀ x ∈ lams, 0 < x)
    (hT : T.lam = lamRangeWithReciprocals lams) {a b : ℝ} (ha : 0 < a) (hb : 0 < b)
    (h : ∃ t ∈ T.lam, |t - b / a| ≤ 99 / 10 ^ 7 * (b / a)) :
    lamIndex T (b / a) ≠ none ∧ lamIndex T (a / b) ≠ none := by
  obtain ⟨t, ht, h⟩ := h
  have ht0 : 0 < t := ((C40_table lams hpos).2.2 t (hT ▸ ht)).1
  have hr : 0 < b / a := div_pos hb ha
  refine ⟨lamIndex_ne_none.mpr ⟨t, ht, ?_⟩, lamIndex_ne_none.mpr ⟨1 / t, ?_, ?_⟩⟩
  · rw [abs_of_pos hr]; linarith
  · rw [hT] at ht ⊢; exact (C40_closed lams hpos t).mp ht
  · have e : a / b = 1 / (b / a) := by rw [one_div_div]
    rw [e]
    set r := b / a
    have hd : 1 / t - 1 / r = -(t - r) / (t * r) := by field_simp; ring
    rw [hd, abs_div, abs_neg, abs_of_pos (mul_pos ht0 hr), abs_of_pos (one_div_pos.mpr hr)]
    have hlow : r * (1 - 99 / 10 ^ 7) ≤ t := by
      have := (abs_le.mp h).1
      linarith
    have : |t - r| / (t * r) ≤ 1 / 10 ^ 5 * (1 / r) := by
      rw [div_le_iff₀ (mul_pos ht0 hr)]
      have e2 : 1 / 10 ^ 5 * (1 / r) * (t * r) = t / 10 ^ 5 := by field_simp
      rw [e2]
      linarith
    linarith [show (0 : ℝ) < 1 / 10 ^ 8 by norm_num]

/-- The ratios shipped with the code. -/
noncomputable def shippedRatios : List ℝ := [1 / 100, 1 / 10, 1]

theorem shipped_pos : ∀ x ∈ shippedRatios, 0 < x := by
  intro x hx
  simp only [shippedRatios, List.mem_cons, List.not_mem_nil, or_false] at hx
  rcases hx with rfl | rfl | rfl <;> norm_num

theorem shipped_mem (y : ℝ) : y ∈ lamRangeWithReciprocals shippedRatios ↔
    y = 1 / 100 ∨ y = 1 / 10 ∨ y = 1 ∨ y = 10 ∨ y = 100 := by
  rw [(C40_table _ shipped_pos).2.1]
  have e : ∀ c : ℝ, 1 / y = c ↔ y = 1 / c := fun c => by
    constructor
    · rintro rfl; simp
    · rintro rfl; simp
  simp only [shippedRatios, List.mem_cons, List.not_mem_nil, or_false, e]
  norm_num
  tauto

/-- **C40** fails at the edge of the tolerance: with the ratios shipped with the code, there are two sizes
for which `(a, b)` is found and `(b, a)` is not. -/
theorem C40_edge (T : ScalarTable) (hT : T.lam = lamRangeWithReciprocals shippedRatios) :
    ∃ a b : ℝ, 0 < a ∧ 0 < b ∧ lamIndex T (b / a) ≠ none ∧ lamIndex T (a / b) = none := by
  refine ⟨1, 1 + 1001005 / 10 ^ 11, by norm_num, by norm_num, ?_, ?_⟩
  · refine lamIndex_ne_none.mpr ⟨1, by rw [hT, shipped_mem]; simp, ?_⟩
    rw [abs_of_neg (by norm_num), abs_of_pos (by norm_num)]
    norm_num
  · by_contra h
    obtain ⟨t, ht, h⟩ := lamIndex_ne_none.mp h
    rw [hT, shipped_mem] at ht
    rw [abs_of_pos (show (0 : ℝ) < 1 / (1 + 1001005 / 10 ^ 11) by norm_num)] at h
    rcases ht with rfl | rfl | rfl | rfl | rfl <;> rw [abs_le] at h <;> norm_num at h

example : (lamRangeWithReciprocals shippedRatios).count 100 = 1 := by
  rw [((C40_table _ shipped_pos).2.2 100 (by rw [shipped_mem]; simp)).2]
  simp [shippedRatios, List.count_cons]
  norm_num

/-! ## C39 -/

theorem forIn_throw {α : Type} (l : List α) (p : α → Prop) [DecidablePred p] (e : StartError) :
    (forIn l PUnit.unit fun x _ => if p x then (throw e : Except StartError (ForInStep PUnit))
      else pure (.yield PUnit.unit)) = (if ∃ x ∈ l, p x then throw e else pure PUnit.unit : Except _ _) := by
  induction l with
  | nil => simp
  | cons x xs ih =>
    rw [List.forIn_cons]
    by_cases hx : p x
    · simp [hx]
      rfl
    · simp only [if_neg hx, pure_bind]
      rw [ih]
      simp [hx]

open Classical in
theorem startUp_eq (form : String) (sizes : List ℝ) (inputOk : Bool) (table : List ℝ) :
    startUp form sizes inputOk table =
      if sizes.length = 0 ∧ form ∉ ["fts", "duf", "RPY_dumbbells_only", "stokes_drag_dumbbells_only"] then
        .error .dumbbellsOnly
      else if 0 < sizes.length ∧ form ∈ ["duf", "RPY_dumbbells_only", "stokes_drag_dumbbells_only"] then
        .error .hasSpheres
      else if inputOk = false then .error .badInput
      else if ∃ x ∈ sizes.flatMap (fun i => sizes.map fun j => i / j),
          ¬ table.any (fun t => decide (isclose x t)) then .error .ratio
      else .ok () := by
  unfold startUp
  by_cases h1 : sizes.length = 0 ∧ form ∉ ["fts", "duf", "RPY_dumbbells_only", "stokes_drag_dumbbells_only"]
  · simp only [if_pos h1]; rfl
  by_cases h2 : 0 < sizes.length ∧ form ∈ ["duf", "RPY_dumbbells_only", "stokes_drag_dumbbells_only"]
  · simp only [if_neg h1, if_pos h2]; rfl
  by_cases h3 : inputOk = false
  · simp only [if_neg h1, if_neg h2, if_pos h3]; rfl
  simp only [if_neg h1, if_neg h2, if_neg h3]
  have := forIn_throw (sizes.flatMap fun i => sizes.map fun j => i / j)
    (fun x => ¬ table.any (fun t => decide (isclose x t))) .ratio
  refine Eq.trans (b := (forIn (sizes.flatMap fun i => sizes.map fun j => i / j) PUnit.unit fun x _ =>
    if ¬ table.any (fun t => decide (isclose x t)) then
      (throw StartError.ratio : Except StartError (ForInStep PUnit))
      else pure (.yield PUnit.unit)) >>= fun _ => pure ()) rfl ?_
  rw [this]
  split_ifs <;> rfl

theorem nested_ok {A B C D : Prop} {_ : Decidable A} {_ : Decidable B} {_ : Decidable C} {_ : Decidable D}
    {a b c d : StartError} :
    (if A then .error a else if B then .error b else if C then .error c else if D then .error d else
      .ok () : Except StartError Unit) = .ok () ↔ ¬ A ∧ ¬ B ∧ ¬ C ∧ ¬ D := by
  by_cases hA : A <;> by_cases hB : B <;> by_cases hC : C <;> by_cases hD : D <;> simp [hA, hB, hC, hD]

open Classical in
/-- **C39**. A run starts exactly when: without spheres the form is `fts` or a dumbbell-only form; with
spheres it is not a dumbbell-only form; the input is known; and every ratio of two sphere sizes is within
the tolerance of an entry of the table. -/
theorem C39_starts_iff (form : String) (sizes : List ℝ) (inputOk : Bool) (table : List ℝ) :
    startUp form sizes inputOk table = .ok () ↔
      (sizes = [] → form = "fts" ∨ DumbbellOnly form) ∧ (sizes ≠ [] → ¬ DumbbellOnly form) ∧
      inputOk = true ∧
      ∀ a ∈ sizes, ∀ b ∈ sizes, ∃ t ∈ table, |a / b - t| ≤ 1 / 10 ^ 8 + 1 / 10 ^ 5 * |t| := by
  rw [startUp_eq]
  have e : (∃ x ∈ sizes.flatMap (fun i => sizes.map fun j => i / j),
      ¬ table.any (fun t => decide (isclose x t))) ↔
      ¬ ∀ a ∈ sizes, ∀ b ∈ sizes, ∃ t ∈ table, |a / b - t| ≤ 1 / 10 ^ 8 + 1 / 10 ^ 5 * |t| := by
    simp [isclose]
  have e0 : sizes.length = 0 ↔ sizes = [] := List.length_eq_zero_iff
  have e1 : 0 < sizes.length ↔ sizes ≠ [] := List.length_pos_iff
  have e2 : form ∈ ["fts", "duf", "RPY_dumbbells_only", "stokes_drag_dumbbells_only"] ↔
      form = "fts" ∨ DumbbellOnly form := by simp [DumbbellOnly]
  have e3 : form ∈ ["duf", "RPY_dumbbells_only", "stokes_drag_dumbbells_only"] ↔ DumbbellOnly form := by
    simp [DumbbellOnly]
  refine Iff.trans nested_ok ?_
  rw [e, e0, e1, e2, e3]
  cases inputOk <;> simp only [Bool.false_eq_true, not_true, not_false_eq_true, reduceCtorEq] <;> tauto

/-- **C39** (lookups), with a margin. If every ratio of two sphere sizes is in the table to a relative
accuracy of 9.99e-6, the run starts (given a suitable form) and the near-field matrix of any configuration of
spheres of those sizes is found. Missing: ratios at the very edge of the tolerance, which start-up accepts
and the lookup does not find (`C39_edge`). -/
theorem C39_lookup_partial {T : ScalarTable} {P : PosData} {k mu : ℝ} (bb : Bool) (hP : Sensible P)
    (hk : 0 < k) (hNd : P.Nd = 0) (hNs : 0 < P.Ns) {form : String} (hf : ¬ DumbbellOnly form)
    (h : ∀ x < P.Ns, ∀ y < P.Ns, ∃ t ∈ T.lam, 0 < t ∧
      |P.sphereSize x / P.sphereSize y - t| ≤ 999 / 10 ^ 8 * t) :
    startUp form ((List.range P.Ns).map P.sphereSize) true T.lam = .ok () ∧
      generate_R2Bexact T P k mu bb ≠ none := by
  constructor
  · rw [C39_starts_iff]
    refine ⟨fun e => ?_, fun _ => hf, rfl, ?_⟩
    · have := congrArg List.length e
      simp at this; omega
    · intro a ha b hb
      simp only [List.mem_map, List.mem_range] at ha hb
      obtain ⟨x, hx, rfl⟩ := ha
      obtain ⟨y, hy, rfl⟩ := hb
      obtain ⟨t, ht, h0, h1⟩ := h x hx y hy
      refine ⟨t, ht, ?_⟩
      rw [abs_of_pos h0]
      linarith
  · have hT : Tabulated T.lam P k := by
      intro x hx y hy _
      have hx' : x < P.Ns := by simpa [beads, hNd] using hx
      have hy' : y < P.Ns := by simpa [beads, hNd] using hy
      have ex : radius P x = P.sphereSize x := by simp [radius, hx']
      have ey : radius P y = P.sphereSize y := by simp [radius, hy']
      obtain ⟨t, ht, h0, h1⟩ := h y hy' x hx'
      refine ⟨t, ht, ?_⟩
      rw [ex, ey, abs_sub_comm]
      have hpos : 0 < P.sphereSize y / P.sphereSize x := by
        rw [← ex, ← ey]; exact div_pos (hP.radius_pos y hy) (hP.radius_pos x hx)
      rw [abs_of_pos hpos]
      have := (abs_le.mp h1).1
      linarith
    obtain ⟨R, hR, -⟩ := C20_symmetric hP hk hT mu bb
    rw [hR]; simp

/-- **C39** fails at the edge of the tolerance: with the ratios shipped with the code, a run with two spheres
starts although the ratio of their sizes cannot be looked up. -/
theorem C39_edge (T : ScalarTable) (hT : T.lam = lamRangeWithReciprocals shippedRatios) :
    ∃ a b : ℝ, 0 < a ∧ 0 < b ∧ startUp "fte" [a, b] true T.lam = .ok () ∧ lamIndex T (b / a) = none := by
  refine ⟨1, 99998999995 / 10 ^ 9, by norm_num, by norm_num, ?_, ?_⟩
  · rw [C39_starts_iff]
    refine ⟨by simp, by simp [DumbbellOnly], rfl, ?_⟩
    intro a ha b hb
    have m1 : (1 : ℝ) ∈ T.lam := by rw [hT, shipped_mem]; simp
    have m100 : (100 : ℝ) ∈ T.lam := by rw [hT, shipped_mem]; simp
    have m01 : (1 / 100 : ℝ) ∈ T.lam := by rw [hT, shipped_mem]; simp
    simp only [List.mem_cons, List.not_mem_nil, or_false] at ha hb
    rcases ha with rfl | rfl <;> rcases hb with rfl | rfl
    · exact ⟨1, m1, by norm_num⟩
    · refine ⟨1 / 100, m01, ?_⟩
      rw [abs_of_pos (by norm_num), abs_of_pos (by norm_num)]; norm_num
    · refine ⟨100, m100, ?_⟩
      rw [abs_of_neg (by norm_num), abs_of_pos (by norm_num)]; norm_num
    · exact ⟨1, m1, by norm_num⟩
  · by_contra h
    obtain ⟨t, ht, h⟩ := lamIndex_ne_none.mp h
    rw [hT, shipped_mem] at ht
    rw [abs_of_pos (show (0 : ℝ) < 99998999995 / 10 ^ 9 / 1 by norm_num)] at h
    rcases ht with rfl | rfl | rfl | rfl | rfl <;> rw [abs_le] at h <;> norm_num at h

/-- **C39** says nothing about dumbbells: a run starts although the ratio of a sphere and a bead is not in
the table, and then there is no near-field matrix. -/
theorem C39_dumbbells_unchecked :
    ∃ (T : ScalarTable) (P : PosData), Sensible P ∧
      startUp "fte" ((List.range P.Ns).map P.sphereSize) true T.lam = .ok () ∧
      generate_R2Bexact T P 5 1 true = none := by
  refine ⟨{ demoT with lam := [1 / 2, 1, 2] }, demoP, demoP_sensible, ?_, demo_missing⟩
  rw [C39_starts_iff]
  refine ⟨by simp [demoP], by simp [DumbbellOnly], rfl, ?_⟩
  intro a ha b hb
  refine ⟨a / b, ?_, by simp; positivity⟩
  simp only [List.mem_map, List.mem_range] at ha hb
  obtain ⟨x, hx, rfl⟩ := ha
  obtain ⟨y, hy, rfl⟩ := hb
  have hx' : x < 2 := hx
  have hy' : y < 2 := hy
  interval_cases x <;> interval_cases y <;> norm_num [demoP]

/-- A form that does not exist is accepted when there are spheres. -/
example : startUp "ftse" [1, 1] true [1] = .ok () := by
  rw [C39_starts_iff]
  exact ⟨by simp, by simp [DumbbellOnly], rfl, by norm_num⟩

example : startUp "fte" [] true [1] = .error .dumbbellsOnly := by
  rw [startUp_eq, if_pos (by simp)]

example : startUp "fte" [1, 3] true [1] = .error .ratio := by
  rw [startUp_eq, if_neg (by simp), if_neg (by simp), if_neg (by simp), if_pos]
  refine ⟨3, by norm_num, ?_⟩
  have : ¬ isclose 3 1 := by unfold isclose; norm_num
  simp [this]

/-- Two spheres of sizes 1 and 10 with the shipped ratios. -/
example (T : ScalarTable) (hT : T.lam = lamRangeWithReciprocals shippedRatios) :
    ∀ x < 2, ∀ y < 2, ∃ t ∈ T.lam, 0 < t ∧
      |(fun i : ℕ => if i = 0 then (1 : ℝ) else 10) x / (fun i : ℕ => if i = 0 then (1 : ℝ) else 10) y - t|
        ≤ 999 / 10 ^ 8 * t := by
  intro x hx y hy
  interval_cases x <;> interval_cases y
  · exact ⟨1, by rw [hT, shipped_mem]; simp, by norm_num⟩
  · exact ⟨1 / 10, by rw [hT, shipped_mem]; simp, by norm_num⟩
  · exact ⟨10, by rw [hT, shipped_mem]; simp, by norm_num⟩
  · exact ⟨1, by rw [hT, shipped_mem]; simp, by norm_num⟩

/-! ## C47 -/

/-- The table the settings ask for: the drag-only table exactly when both switches are on. -/
def askedTable (use_drag_Minfinity use_drag_R2Binfinity : Bool) : ScalarFile :=
  match use_drag_Minfinity, use_drag_R2Binfinity with
  | true, true => .drag
  | _, _ => .full

/-- **C47**, as far as it holds: without the drag-only far field the right table (full subtraction) is used
whatever the other switch says, and with it the wrong table is used. Missing: with the drag-only far field
the choice is inverted, so the claim is false there (`C47_inverted`). -/
theorem C47_right_table_partial (dm dr : Bool) :
    scalarFile dm dr = askedTable dm dr ↔ dm = false := by
  cases dm <;> cases dr <;> decide

/-- **C47** fails with the drag-only far field: the drag-only table is used exactly when it is not asked
for. -/
theorem C47_inverted (dr : Bool) : scalarFile true dr = .drag ↔ dr = false := by
  cases dr <;> decide

/-- **C47** (missing file). If only the table with full subtraction is there, as in the distributed code,
then the scalars cannot be loaded exactly with the drag-only far field and the other switch off. -/
theorem C47_missing {α : Type} (disk : ScalarFile → Option α) (h1 : disk .full ≠ none)
    (h2 : disk .drag = none) (dm dr : Bool) :
    loadScalars disk dm dr = none ↔ dm = true ∧ dr = false := by
  cases dm <;> cases dr <;> simp [loadScalars, scalarFile, h1, h2]

example : loadScalars (fun f => if f = .full then some 1 else none) true false = none :=
  (C47_missing (fun f => if f = .full then some 1 else none) (by simp) (by simp) true false).mpr ⟨rfl, rfl⟩

end SD
