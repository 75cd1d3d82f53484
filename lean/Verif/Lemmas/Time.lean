import Verif.Model.Format
import Verif.Spec.Time
import Mathlib.Tactic.IntervalCases
import Mathlib.Tactic.Linarith
import Mathlib.Tactic.Ring
import Mathlib.Tactic.NormNum
import Mathlib.Algebra.Order.Floor.Semifield

set_option autoImplicit false

namespace SD

open Spec

theorem digit_toNat {n : ℕ} (h : n < 10) : (Char.ofNat (48 + n)).toNat - 48 = n ∧
    (Char.ofNat (48 + n)).isDigit ∧ Char.ofNat (48 + n) ≠ ' ' := by
  interval_cases n <;> decide

theorem readNat_append (l : List Char) (c : Char) (hc : c ≠ ' ') :
    readNat (l ++ [c]) = 10 * readNat l + (c.toNat - 48) := by
  unfold readNat
  rw [List.foldl_append]
  simp [hc]

theorem readNat_pyDigits (n : ℕ) : readNat (pyDigits n) = n := by
  induction n using Nat.strong_induction_on with
  | _ n ih =>
    rw [pyDigits]
    by_cases h : n < 10
    · rw [if_pos h]
      obtain ⟨h1, -, h3⟩ := digit_toNat h
      simp [readNat, h3, h1]
    · rw [if_neg h]
      obtain ⟨h1, -, h3⟩ := digit_toNat (Nat.mod_lt n (by norm_num : 0 < 10))
      rw [readNat_append _ _ h3, h1, ih _ (by omega)]
      omega

theorem pyDigits_decimal (n : ℕ) : Decimal (pyDigits n) := by
  induction n using Nat.strong_induction_on with
  | _ n ih =>
    rw [pyDigits]
    by_cases h : n < 10
    · rw [if_pos h]
      obtain ⟨-, h2, -⟩ := digit_toNat h
      exact ⟨by simp, by simpa using h2⟩
    · rw [if_neg h]
      obtain ⟨-, h2, -⟩ := digit_toNat (Nat.mod_lt n (by norm_num : 0 < 10))
      refine ⟨by simp, fun c hc => ?_⟩
      rw [List.mem_append] at hc
      rcases hc with hc | hc
      · exact (ih _ (by omega)).2 c hc
      · rw [List.mem_singleton.mp hc]; exact h2

theorem pyDigits_small {n : ℕ} (h : n < 10) : pyDigits n = [Char.ofNat (48 + n)] := by
  rw [pyDigits, if_pos h]

theorem pyDigits_two {n : ℕ} (h : 10 ≤ n) (h' : n < 100) :
    pyDigits n = [Char.ofNat (48 + n / 10), Char.ofNat (48 + n % 10)] := by
  rw [pyDigits, if_neg (by omega), pyDigits_small (by omega)]
  rfl

theorem pad_two {n : ℕ} (h : n < 100) (c : Char) (hc : c = ' ' ∨ c = '0') :
    TwoPlaces (padLeft 2 c (pyDigits n)) ∧ readNat (padLeft 2 c (pyDigits n)) = n ∧
    (c = '0' → Decimal (padLeft 2 c (pyDigits n))) := by
  by_cases hn : n < 10
  · obtain ⟨h1, h2, h3⟩ := digit_toNat hn
    rw [pyDigits_small hn]
    refine ⟨⟨c, Char.ofNat (48 + n), rfl, ?_, h2⟩, ?_, ?_⟩
    · rcases hc with rfl | rfl
      · exact Or.inl rfl
      · exact Or.inr (by decide)
    · rcases hc with rfl | rfl
      · simp [padLeft, readNat, h3, h1]
      · simp [padLeft, readNat, h3, h1]
    · rintro rfl
      refine ⟨by simp [padLeft], fun c hc => ?_⟩
      simp only [padLeft, List.length_singleton, List.mem_append, List.mem_replicate,
        List.mem_singleton] at hc
      rcases hc with ⟨-, rfl⟩ | rfl
      · decide
      · exact h2
  · have e : padLeft 2 c (pyDigits n) = pyDigits n := by
      rw [pyDigits_two (by omega) h]; rfl
    rw [e]
    refine ⟨?_, readNat_pyDigits n, fun _ => pyDigits_decimal n⟩
    rw [pyDigits_two (by omega) h]
    exact ⟨_, _, rfl, Or.inr (digit_toNat (by omega)).2.1, (digit_toNat (by omega)).2.1⟩

/-- Splitting a duration in whole minutes and seconds. -/
theorem divmod_sixty (x : ℝ) :
    (divmodR x 60).1 = ⌊x⌋₊ / 60 ∧ ⌊(divmodR x 60).2⌋₊ = ⌊x⌋₊ % 60 := by
  unfold divmodR
  have e : ⌊x / (60 : ℕ)⌋₊ = ⌊x⌋₊ / 60 := Nat.floor_div_natCast x 60
  refine ⟨e, ?_⟩
  dsimp only
  rw [e]
  have h1 : x - (60 : ℕ) * ((⌊x⌋₊ / 60 : ℕ) : ℝ) = x - ((60 * (⌊x⌋₊ / 60) : ℕ) : ℝ) := by push_cast; ring
  rw [h1, Nat.floor_sub_natCast]
  omega

theorem roundHalfEven_near (x : ℝ) : |x - roundHalfEven x| ≤ 1 / 2 := by
  classical
  have a := Int.floor_le x
  have b := Int.lt_floor_add_one x
  unfold roundHalfEven
  by_cases h1 : x - ⌊x⌋ < 1 / 2
  · rw [if_pos h1, abs_le]; constructor <;> linarith
  · rw [if_neg h1]
    by_cases h2 : x - ⌊x⌋ > 1 / 2
    · rw [if_pos h2]; push_cast; rw [abs_le]; constructor <;> linarith
    · rw [if_neg h2]
      by_cases h3 : Even ⌊x⌋
      · rw [if_pos h3, abs_le]; constructor <;> linarith
      · rw [if_neg h3]; push_cast; rw [abs_le]; constructor <;> linarith

theorem mean_between {l : List ℝ} {lo hi : ℝ} (hl : l ≠ []) (h : ∀ x ∈ l, lo ≤ x ∧ x ≤ hi) :
    lo ≤ meanOf l ∧ meanOf l ≤ hi := by
  have h1 : (l.length : ℝ) * lo ≤ l.sum ∧ l.sum ≤ l.length * hi := by
    clear hl
    induction l with
    | nil => simp
    | cons a t ih =>
      have := ih fun x hx => h x (List.mem_cons_of_mem _ hx)
      have ha := h a List.mem_cons_self
      rw [List.sum_cons, List.length_cons]
      push_cast
      constructor <;> linarith
  have hp : (0 : ℝ) < l.length := by
    have := List.length_pos_iff.mpr hl
    exact_mod_cast this
  unfold meanOf
  constructor
  · rw [le_div_iff₀ hp]; linarith [h1.1]
  · rw [div_le_iff₀ hp]; linarith [h1.2]

end SD
