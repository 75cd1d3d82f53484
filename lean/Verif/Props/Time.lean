import Verif.Lemmas.Time
import Mathlib.Algebra.BigOperators.Intervals

/-!
# C43: the estimate of the remaining time and the formatting of durations
-/

set_option autoImplicit false

namespace SD

open Spec

/-! ## The estimate -/

section
variable (jit : Bool) (times : ℕ → ℝ) (frameno num_frames n start : ℕ)

theorem done_mem {i : ℕ} (h : start ≤ frameno) :
    i ∈ List.range' start (frameno + 1 - start) ↔ start ≤ i ∧ i ≤ frameno := by
  rw [List.mem_range'_1]; omega

theorem longs_ne (h : start ≤ frameno) :
    ((List.range' start (frameno + 1 - start)).filter fun i => dueFrame n start i).map times
      = times start :: (((List.range' (start + 1) (frameno - start)).filter
          fun i => dueFrame n start i).map times) := by
  rw [show frameno + 1 - start = (frameno - start) + 1 by omega, List.range'_succ]
  have : dueFrame n start start = true := by simp [dueFrame]
  rw [List.filter_cons, if_pos this, List.map_cons]

theorem left_split (s k : ℕ) (f : ℕ → ℝ) (p : ℕ → Bool) (A B : ℝ)
    (hf : ∀ i, f i = if p i then A else B) :
    (((List.range' s k).filter fun i => !p i).length : ℝ) * B
      + ((List.range' s k).filter fun i => p i).length * A = ∑ i ∈ Finset.Ico s (s + k), f i := by
  induction k with
  | zero => simp
  | succ k ih =>
    rw [List.range'_concat, List.filter_append, List.filter_append, ← add_assoc,
      Finset.sum_Ico_succ_top (by omega), ← ih, hf]
    by_cases h : p (s + k)
    · simp [h]; ring
    · simp [h]; ring

/-- The estimate lies between the shortest and the longest frame time so far, for every frame left, with the
allowance of three per cent. -/
theorem C43_bounds (hn : 0 < n) (h : start ≤ frameno) (lo hi : ℝ)
    (ht : ∀ i, start ≤ i → i ≤ frameno → lo ≤ times i ∧ times i ≤ hi) :
    ∃ r, calculate_time_left jit times frameno num_frames n start = some r ∧
    1.03 * ((num_frames - (frameno + 1) : ℕ) * lo) ≤ r.1 ∧
    r.1 ≤ 1.03 * ((num_frames - (frameno + 1) : ℕ) * hi) := by
  refine ⟨_, if_neg hn.ne', ?_⟩
  dsimp only
  rw [longs_ne times frameno n start h]
  have hlong : ∀ x ∈ times start :: (((List.range' (start + 1) (frameno - start)).filter
      fun i => dueFrame n start i).map times), lo ≤ x ∧ x ≤ hi := by
    rw [← longs_ne times frameno n start h]
    intro x hx
    obtain ⟨i, hi', rfl⟩ := List.mem_map.mp hx
    have := (done_mem frameno start h).mp (List.mem_of_mem_filter hi')
    exact ht i this.1 this.2
  have hshort : ∀ x ∈ ((List.range' start (frameno + 1 - start)).filter
      fun i => !dueFrame n start i).map times, lo ≤ x ∧ x ≤ hi := by
    intro x hx
    obtain ⟨i, hi', rfl⟩ := List.mem_map.mp hx
    have := (done_mem frameno start h).mp (List.mem_of_mem_filter hi')
    exact ht i this.1 this.2
  generalize (((List.range' (start + 1) (frameno - start)).filter fun i => dueFrame n start i).map
    times) = t at hlong
  generalize ((List.range' start (frameno + 1 - start)).filter fun i => !dueFrame n start i).map
    times = s at hshort
  have hA : ∀ A : ℝ × String, A = (if jit = true then
        if (times start :: t).length ≥ 2 then (meanOf (times start :: t).tail, "")
        else if (times start :: t).length = 1 then ((times start :: t).headD 0, "<") else (0, "")
      else if (times start :: t).length > 0 then (meanOf (times start :: t), "") else (0, "")) →
      lo ≤ A.1 ∧ A.1 ≤ hi := by
    rintro A rfl
    cases jit with
    | true =>
      rw [if_pos rfl]
      by_cases h2 : (times start :: t).length ≥ 2
      · rw [if_pos h2]
        refine mean_between ?_ fun x hx => hlong x (List.mem_cons_of_mem _ hx)
        rintro ht0
        simp only [List.tail_cons] at ht0
        rw [ht0] at h2
        simp at h2
      · rw [if_neg h2, if_pos (by simp only [List.length_cons] at h2 ⊢; omega)]
        exact hlong _ List.mem_cons_self
    | false =>
      rw [if_neg (by simp), if_pos (by simp)]
      exact mean_between (by simp) hlong
  specialize hA _ rfl
  revert hA
  generalize (if jit = true then
        if (times start :: t).length ≥ 2 then (meanOf (times start :: t).tail, "")
        else if (times start :: t).length = 1 then ((times start :: t).headD 0, "<") else (0, "")
      else if (times start :: t).length > 0 then (meanOf (times start :: t), "") else (0, "")) = A
  intro hA
  have hB : lo ≤ (if s.length ≠ 0 then meanOf s else A.1) ∧ (if s.length ≠ 0 then meanOf s else A.1) ≤ hi := by
    by_cases hs : s.length ≠ 0
    · rw [if_pos hs]
      exact mean_between (by intro h0; rw [h0] at hs; simp at hs) hshort
    · rw [if_neg hs]; exact hA
  generalize (if s.length ≠ 0 then meanOf s else A.1) = B at hB
  have key := left_split (frameno + 1) (num_frames - (frameno + 1)) (fun i => if (i % n == 0) = true then A.1 else B)
    (fun i => i % n == 0) A.1 B (fun _ => rfl)
  have e : (fun i => i % n != 0) = fun i => !(i % n == 0) := rfl
  rw [e, key]
  have h1 : ((num_frames - (frameno + 1) : ℕ) : ℝ) * lo
      ≤ ∑ i ∈ Finset.Ico (frameno + 1) (frameno + 1 + (num_frames - (frameno + 1))),
        (if (i % n == 0) = true then A.1 else B) := by
    have := Finset.card_nsmul_le_sum (Finset.Ico (frameno + 1) (frameno + 1 + (num_frames - (frameno + 1))))
      (fun i => if (i % n == 0) = true then A.1 else B) lo (fun i _ => by
        split_ifs
        · exact hA.1
        · exact hB.1)
    rw [Nat.card_Ico, add_tsub_cancel_left, nsmul_eq_mul] at this
    exact this
  have h2 : ∑ i ∈ Finset.Ico (frameno + 1) (frameno + 1 + (num_frames - (frameno + 1))),
        (if (i % n == 0) = true then A.1 else B) ≤ ((num_frames - (frameno + 1) : ℕ) : ℝ) * hi := by
    have := Finset.sum_le_card_nsmul (Finset.Ico (frameno + 1) (frameno + 1 + (num_frames - (frameno + 1))))
      (fun i => if (i % n == 0) = true then A.1 else B) hi (fun i _ => by
        split_ifs
        · exact hA.2
        · exact hB.2)
    rw [Nat.card_Ico, add_tsub_cancel_left, nsmul_eq_mul] at this
    exact this
  constructor <;> linarith

/-- On the last frame (and after) nothing is left. -/
theorem C43_last (hn : 0 < n) (h : num_frames ≤ frameno + 1) :
    ∃ r, calculate_time_left jit times frameno num_frames n start = some r ∧ r.1 = 0 := by
  refine ⟨_, if_neg hn.ne', ?_⟩
  dsimp only
  rw [Nat.sub_eq_zero_of_le h]
  simp

theorem meanOf_const {l : List ℝ} {A : ℝ} (hl : l ≠ []) (h : ∀ x ∈ l, x = A) : meanOf l = A := by
  have := mean_between (lo := A) (hi := A) hl fun x hx => ⟨(h x hx).ge, (h x hx).le⟩
  exact le_antisymm this.2 this.1

/-- When the frames that invert the mobility matrix took `A` each and the others `B`, and both kinds have been
seen since the first frame, the estimate is the sum of these over the frames left, plus three per cent. The
time of the first frame does not matter when compilation is on. -/
theorem C43_exact (hn : 0 < n) (A B : ℝ) (h0 : jit = false → times start = A)
    (ht : ∀ i, start < i → i ≤ frameno → times i = if n ∣ i then A else B)
    (hA : ∃ i, start < i ∧ i ≤ frameno ∧ n ∣ i) (hB : ∃ i, start < i ∧ i ≤ frameno ∧ ¬ n ∣ i) :
    ∃ r, calculate_time_left jit times frameno num_frames n start = some r ∧
      r.1 = 1.03 * ∑ i ∈ Finset.Ico (frameno + 1) num_frames, if n ∣ i then A else B := by
  have h : start ≤ frameno := by obtain ⟨i, h1, h2, -⟩ := hA; omega
  have hdvd : ∀ i, (i % n == 0) = true ↔ n ∣ i := by
    intro i; rw [beq_iff_eq, Nat.dvd_iff_mod_eq_zero]
  refine ⟨_, if_neg hn.ne', ?_⟩
  dsimp only
  rw [longs_ne times frameno n start h]
  have hlong : ∀ x ∈ ((List.range' (start + 1) (frameno - start)).filter
      fun i => dueFrame n start i).map times, x = A := by
    intro x hx
    obtain ⟨i, hi', rfl⟩ := List.mem_map.mp hx
    obtain ⟨hm, hd⟩ := List.mem_filter.mp hi'
    rw [List.mem_range'_1] at hm
    rw [ht i (by omega) (by omega), if_pos]
    simp only [dueFrame, Bool.or_eq_true, hdvd, beq_iff_eq] at hd
    rcases hd with hd | hd
    · exact hd
    · omega
  have hne : ((List.range' (start + 1) (frameno - start)).filter
      fun i => dueFrame n start i).map times ≠ [] := by
    obtain ⟨i, h1, h2, h3⟩ := hA
    apply List.ne_nil_of_mem (a := times i)
    refine List.mem_map.mpr ⟨i, List.mem_filter.mpr ⟨?_, ?_⟩, rfl⟩
    · rw [List.mem_range'_1]; omega
    · simp only [dueFrame, Bool.or_eq_true, hdvd]; exact Or.inl h3
  have hshort : ∀ x ∈ ((List.range' start (frameno + 1 - start)).filter
      fun i => !dueFrame n start i).map times, x = B := by
    intro x hx
    obtain ⟨i, hi', rfl⟩ := List.mem_map.mp hx
    obtain ⟨hm, hd⟩ := List.mem_filter.mp hi'
    have hm := (done_mem frameno start h).mp hm
    simp only [dueFrame, Bool.not_eq_true', Bool.or_eq_false_iff, beq_eq_false_iff_ne, ne_eq] at hd
    have hi2 : i ≠ start := hd.2
    rw [ht i (by omega) (by omega), if_neg fun hc => hd.1 (Nat.mod_eq_zero_of_dvd hc)]
  have hsne : ((List.range' start (frameno + 1 - start)).filter
      fun i => !dueFrame n start i).map times ≠ [] := by
    obtain ⟨i, h1, h2, h3⟩ := hB
    apply List.ne_nil_of_mem (a := times i)
    refine List.mem_map.mpr ⟨i, List.mem_filter.mpr ⟨?_, ?_⟩, rfl⟩
    · exact (done_mem frameno start h).mpr (by omega)
    · simp only [dueFrame, Bool.not_eq_true', Bool.or_eq_false_iff, beq_eq_false_iff_ne, ne_eq]
      exact ⟨fun hc => h3 (Nat.dvd_of_mod_eq_zero hc), by omega⟩
  generalize (((List.range' (start + 1) (frameno - start)).filter fun i => dueFrame n start i).map
    times) = t at hlong hne
  generalize ((List.range' start (frameno + 1 - start)).filter fun i => !dueFrame n start i).map
    times = s at hshort hsne
  have eA : (if jit = true then
        if (times start :: t).length ≥ 2 then (meanOf (times start :: t).tail, "")
        else if (times start :: t).length = 1 then ((times start :: t).headD 0, "<") else (0, "")
      else if (times start :: t).length > 0 then (meanOf (times start :: t), "") else (0, ""))
      = (A, "") := by
    have hp := List.length_pos_iff.mpr hne
    cases hj : jit with
    | true =>
      rw [if_pos rfl, if_pos (by rw [List.length_cons]; omega), List.tail_cons, meanOf_const hne hlong]
    | false =>
      rw [if_neg (by simp), if_pos (by simp), meanOf_const (by simp) fun x hx => ?_]
      rcases List.mem_cons.mp hx with rfl | hx
      · exact h0 hj
      · exact hlong x hx
  have hp := List.length_pos_iff.mpr hsne
  rw [eA, if_pos (by omega), meanOf_const hsne hshort]
  have e : (fun i => i % n != 0) = fun i => !(i % n == 0) := rfl
  rw [e, left_split (frameno + 1) (num_frames - (frameno + 1)) (fun i => if n ∣ i then A else B)
    (fun i => i % n == 0) A B (fun i => by simp only [hdvd])]
  by_cases hle : frameno + 1 ≤ num_frames
  · rw [Nat.add_sub_cancel' hle]; ring
  · rw [Finset.Ico_eq_empty_of_le (by omega), Finset.Ico_eq_empty_of_le (by omega)]; simp

end

/-- Frame 5 of 10 of a run that inverts every second frame, in which the first frame took ten seconds. -/
example : ∃ r, calculate_time_left true (fun i => if i = 0 then 10 else if 2 ∣ i then 2 else 1) 5 10 2 0
    = some r ∧ r.1 = 1.03 * ∑ i ∈ Finset.Ico 6 10, if 2 ∣ i then (2 : ℝ) else 1 :=
  C43_exact true _ 5 10 2 0 (by norm_num) 2 1 (by simp) (fun i hi _ => by simp; omega)
    ⟨2, by norm_num⟩ ⟨1, by norm_num⟩

/-! ## Formatting -/

/-- A day or more: days, then hours, minutes and seconds, all two places wide, which read as numbers below 24,
60 and 60 and together make up the whole seconds of the duration. -/
theorem C43_format_days (x : ℝ) (h : 86400 ≤ x) : ∃ D H M S,
    format_elapsed_time x = D ++ ['d'] ++ H ++ [':'] ++ M ++ [':'] ++ S ∧
    Decimal D ∧ TwoPlaces H ∧ TwoPlaces M ∧ Decimal M ∧ TwoPlaces S ∧ Decimal S ∧
    readNat H < 24 ∧ readNat M < 60 ∧ readNat S < 60 ∧
    ((readNat D * 24 + readNat H) * 60 + readNat M) * 60 + readNat S = ⌊x⌋₊ := by
  obtain ⟨h1, h2⟩ := divmod_sixty x
  unfold format_elapsed_time
  rw [if_pos h]
  dsimp only [divmodN]
  rw [h2, h1]
  obtain ⟨a1, a2, -⟩ := pad_two (n := ⌊x⌋₊ / 60 / 60 % 24) (by omega) ' ' (Or.inl rfl)
  obtain ⟨b1, b2, b3⟩ := pad_two (n := ⌊x⌋₊ / 60 % 60) (by omega) '0' (Or.inr rfl)
  obtain ⟨c1, c2, c3⟩ := pad_two (n := ⌊x⌋₊ % 60) (by omega) '0' (Or.inr rfl)
  refine ⟨_, _, _, _, rfl, pyDigits_decimal _, a1, b1, b3 rfl, c1, c3 rfl, ?_, ?_, ?_, ?_⟩
  · rw [a2]; omega
  · rw [b2]; omega
  · rw [c2]; omega
  · rw [a2, b2, c2, readNat_pyDigits]; omega

/-- An hour or more but less than a day. -/
theorem C43_format_hours (x : ℝ) (h : 3600 ≤ x) (h' : x < 86400) : ∃ H M S,
    format_elapsed_time x = H ++ [':'] ++ M ++ [':'] ++ S ∧
    TwoPlaces H ∧ TwoPlaces M ∧ Decimal M ∧ TwoPlaces S ∧ Decimal S ∧
    readNat H < 24 ∧ readNat M < 60 ∧ readNat S < 60 ∧
    (readNat H * 60 + readNat M) * 60 + readNat S = ⌊x⌋₊ := by
  obtain ⟨h1, h2⟩ := divmod_sixty x
  have hx : ⌊x⌋₊ < 86400 := (Nat.floor_lt (by linarith)).mpr (by exact_mod_cast h')
  unfold format_elapsed_time
  rw [if_neg (by linarith), if_pos h]
  dsimp only [divmodN]
  rw [h2, h1]
  obtain ⟨a1, a2, -⟩ := pad_two (n := ⌊x⌋₊ / 60 / 60) (by omega) ' ' (Or.inl rfl)
  obtain ⟨b1, b2, b3⟩ := pad_two (n := ⌊x⌋₊ / 60 % 60) (by omega) '0' (Or.inr rfl)
  obtain ⟨c1, c2, c3⟩ := pad_two (n := ⌊x⌋₊ % 60) (by omega) '0' (Or.inr rfl)
  refine ⟨_, _, _, rfl, a1, b1, b3 rfl, c1, c3 rfl, ?_, ?_, ?_, ?_⟩
  · rw [a2]; omega
  · rw [b2]; omega
  · rw [c2]; omega
  · rw [a2, b2, c2]; omega

/-- A minute or more but less than an hour. -/
theorem C43_format_minutes (x : ℝ) (h : 60 ≤ x) (h' : x < 3600) : ∃ M S,
    format_elapsed_time x = [' ', ' ', ' '] ++ M ++ [':'] ++ S ∧
    TwoPlaces M ∧ TwoPlaces S ∧ Decimal S ∧ readNat M < 60 ∧ readNat S < 60 ∧
    readNat M * 60 + readNat S = ⌊x⌋₊ := by
  obtain ⟨h1, h2⟩ := divmod_sixty x
  have hx : ⌊x⌋₊ < 3600 := (Nat.floor_lt (by linarith)).mpr (by exact_mod_cast h')
  unfold format_elapsed_time
  rw [if_neg (by linarith), if_neg (by linarith), if_pos h]
  dsimp only [divmodN]
  rw [h2, h1]
  obtain ⟨b1, b2, -⟩ := pad_two (n := ⌊x⌋₊ / 60 % 60) (by omega) ' ' (Or.inl rfl)
  obtain ⟨c1, c2, c3⟩ := pad_two (n := ⌊x⌋₊ % 60) (by omega) '0' (Or.inr rfl)
  refine ⟨_, _, rfl, b1, c1, c3 rfl, ?_, ?_, ?_⟩
  · rw [b2]; omega
  · rw [c2]; omega
  · rw [b2, c2]; omega

/-- Less than a minute: seconds to the nearest tenth, seven places wide. Partial: the seconds stay below 60
except that they reach 60.0 just below a minute (`C43_sixty_seconds`). -/
theorem C43_format_seconds_partial (x : ℝ) (h : 0 ≤ x) (h' : x < 60) : ∃ p W T,
    format_elapsed_time x = List.replicate p ' ' ++ W ++ ['.'] ++ T ++ ['s'] ∧
    Decimal W ∧ Decimal T ∧ T.length = 1 ∧ p + W.length + 2 = 7 ∧ readNat W ≤ 60 ∧
    |10 * x - ((10 * readNat W + readNat T : ℕ) : ℝ)| ≤ 1 / 2 := by
  unfold format_elapsed_time
  rw [if_neg (by linarith), if_neg (by linarith), if_neg (by linarith)]
  unfold format71f
  dsimp only
  have hr := roundHalfEven_near (10 * x)
  have h0 : 0 ≤ roundHalfEven (10 * x) := by
    have h1 := (abs_le.mp hr).2
    by_contra hc
    have : roundHalfEven (10 * x) ≤ -1 := by omega
    have : ((roundHalfEven (10 * x) : ℤ) : ℝ) ≤ -1 := by exact_mod_cast this
    linarith
  obtain ⟨k, hk⟩ := Int.eq_ofNat_of_zero_le h0
  rw [hk] at hr ⊢
  have hk2 : k ≤ 600 := by
    have h1 := (abs_le.mp hr).1
    by_contra hc
    have : (601 : ℝ) ≤ (k : ℝ) := by exact_mod_cast (by omega : 601 ≤ k)
    push_cast at h1
    linarith
  rw [Int.natAbs_natCast, if_neg (by linarith), List.nil_append]
  have hT : (pyDigits (k % 10)).length = 1 := by rw [pyDigits_small (by omega)]; rfl
  have hW : (pyDigits (k / 10)).length ≤ 2 := by
    by_cases hs : k / 10 < 10
    · rw [pyDigits_small hs]; simp
    · rw [pyDigits_two (by omega) (by omega)]; simp
  refine ⟨7 - (pyDigits (k / 10) ++ ['.'] ++ pyDigits (k % 10)).length, pyDigits (k / 10), pyDigits (k % 10),
    ?_, pyDigits_decimal _, pyDigits_decimal _, hT, ?_, ?_, ?_⟩
  · simp [padLeft]
  · simp only [List.length_append, hT, List.length_singleton]; omega
  · rw [readNat_pyDigits]; omega
  · rw [readNat_pyDigits, readNat_pyDigits, show 10 * (k / 10) + k % 10 = k by omega]
    exact_mod_cast hr

/-- The one place where a field can reach 60: durations just below a minute are shown as sixty seconds. -/
theorem C43_sixty_seconds (x : ℝ) (h : 59.95 < x) (h' : x < 60) :
    format_elapsed_time x = [' ', ' ', ' ', '6', '0', '.', '0', 's'] := by
  have e : (59.95 : ℝ) = 5995 / 100 := by norm_num
  have hf : ⌊10 * x⌋ = 599 := by
    rw [Int.floor_eq_iff]; push_cast; constructor <;> linarith
  have hr : roundHalfEven (10 * x) = 600 := by
    unfold roundHalfEven
    rw [hf, if_neg (by push_cast; linarith), if_pos (by push_cast; linarith)]
    rfl
  unfold format_elapsed_time
  rw [if_neg (by linarith), if_neg (by linarith), if_neg (by linarith)]
  unfold format71f
  dsimp only
  rw [hr, if_neg (by linarith)]
  have h1 : pyDigits 60 = ['6', '0'] := by rw [pyDigits_two (by norm_num) (by norm_num)]
  have h2 : pyDigits 0 = ['0'] := by rw [pyDigits_small (by norm_num)]
  have e1 : (600 : ℤ).natAbs / 10 = 60 := by decide
  have e2 : (600 : ℤ).natAbs % 10 = 0 := by decide
  rw [e1, e2, h1, h2]
  rfl

/-- The format of the scalar scripts: hours, minutes and seconds. -/
theorem C43_format_hms (x : ℝ) (_h : 0 ≤ x) : ∃ H M S,
    format_seconds x = H ++ ['h'] ++ M ++ ['m'] ++ S ++ ['s'] ∧
    Decimal H ∧ TwoPlaces M ∧ Decimal M ∧ TwoPlaces S ∧ Decimal S ∧
    readNat M < 60 ∧ readNat S < 60 ∧
    (readNat H * 60 + readNat M) * 60 + readNat S = ⌊x⌋₊ := by
  obtain ⟨h1, h2⟩ := divmod_sixty x
  unfold format_seconds
  dsimp only [divmodN]
  rw [h2, h1]
  obtain ⟨b1, b2, b3⟩ := pad_two (n := ⌊x⌋₊ / 60 % 60) (by omega) '0' (Or.inr rfl)
  obtain ⟨c1, c2, c3⟩ := pad_two (n := ⌊x⌋₊ % 60) (by omega) '0' (Or.inr rfl)
  refine ⟨_, _, _, rfl, pyDigits_decimal _, b1, b3 rfl, c1, c3 rfl, ?_, ?_, ?_⟩
  · rw [b2]; omega
  · rw [c2]; omega
  · rw [b2, c2, readNat_pyDigits]; omega

example := C43_format_days 100000.5 (by norm_num)
example := C43_format_hours 7265.9 (by norm_num) (by norm_num)
example := C43_format_minutes 65 (by norm_num) (by norm_num)
example := C43_format_seconds_partial 12.34 (by norm_num) (by norm_num)
example := C43_sixty_seconds 59.96 (by norm_num) (by norm_num)

end SD
