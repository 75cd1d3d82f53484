import Verif.Model.Solve
import Verif.Spec.Grand
import Verif.Spec.Linear
import Mathlib.Tactic.Linarith
import Mathlib.Tactic.Ring
import Mathlib.Tactic.FieldSimp
import Mathlib.Tactic.LinearCombination
import Mathlib.Data.List.GetD
import Mathlib.Tactic.FinCases
import Mathlib.Algebra.BigOperators.Fin

/-!
# Grand vectors: the model agrees with the index arithmetic
-/

set_option autoImplicit false

namespace SD

open Finset Spec

/-! ## Condensation -/

theorem s3sq : Real.sqrt 3 * Real.sqrt 3 = 3 := Real.mul_self_sqrt (by norm_num)
theorem s2sq : Real.sqrt 2 * Real.sqrt 2 = 2 := Real.mul_self_sqrt (by norm_num)
theorem s2ne : Real.sqrt 2 ≠ 0 := by positivity

theorem condenseOne_eq (s : Mat3) : condenseOne s = five s := by
  funext j
  unfold condenseOne five
  fin_cases j <;>
    simp [Fin.sum_univ_three, contraction, hs3p1, hs3m1, s2] <;> ring

theorem flatOne_eq (s : Mat3) :
    (fun j : Fin 5 => ∑ k : Fin 3, ∑ l : Fin 3, contraction j k l * s k l) = five s := by
  rw [← condenseOne_eq]
  funext j
  unfold condenseOne
  exact Finset.sum_comm

theorem five_uncondense (x : Vec5) : five (uncondenseOne x) = x := by
  have h3 := s3sq
  have h2 := s2sq
  have h2' := s2ne
  funext j
  unfold five uncondenseOne
  fin_cases j <;> simp
  · linear_combination (x 0 / 12 + x 2 / 12 + (x 0 / 12 + x 2 / 12)) * h3
  · field_simp
  · linear_combination (x 0 / 12 + x 2 / 12 + (x 0 / 12 + x 2 / 12)) * h3
  · field_simp
  · field_simp

theorem uncondense_symTraceless (x : Vec5) : SymTraceless (uncondenseOne x) := by
  constructor
  · intro i j
    fin_cases i <;> fin_cases j <;> simp [uncondenseOne]
  · simp [uncondenseOne]; ring

theorem uncondense_five (e : Mat3) (h : SymTraceless e) : uncondenseOne (five e) = e := by
  have h3 := s3sq
  have h2 := s2sq
  have h2' := s2ne
  obtain ⟨hs, ht⟩ := h
  have e22 : e 2 2 = -e 1 1 - e 0 0 := by linarith
  have e00 : uncondenseOne (five e) 0 0 = e 0 0 := by
    simp [uncondenseOne, five]
    linear_combination (e 0 0 / 6 + e 1 1 / 6) * h3
  have e11 : uncondenseOne (five e) 1 1 = e 1 1 := by
    simp [uncondenseOne, five]
    linear_combination (e 0 0 / 6 + e 1 1 / 6) * h3
  funext i j
  fin_cases i <;> fin_cases j
  · exact e00
  · simp [uncondenseOne, five]
  · simp [uncondenseOne, five]
  · have := hs 1 0; simp [uncondenseOne, five]; exact this.symm
  · exact e11
  · simp [uncondenseOne, five]
  · have := hs 2 0; simp [uncondenseOne, five]; exact this.symm
  · have := hs 2 1; simp [uncondenseOne, five]; exact this.symm
  · have : uncondenseOne (five e) 2 2
        = -uncondenseOne (five e) 1 1 - uncondenseOne (five e) 0 0 := rfl
    change uncondenseOne (five e) 2 2 = e 2 2
    rw [this, e00, e11, e22]

/-! ## Index arithmetic -/

/-- To check a statement for every index of a grand vector, check it for every component of every
particle. -/
theorem grand_cases {Ns Nd : ℕ} {Q : ℕ → Prop}
    (h1 : ∀ a < Ns, ∀ c : Fin 3, Q (3 * a + c))
    (h2 : ∀ a < Ns, ∀ c : Fin 3, Q (3 * Ns + (3 * a + c)))
    (h3 : ∀ a < Ns, ∀ c : Fin 5, Q (6 * Ns + (5 * a + c)))
    (h4 : ∀ b < Nd, ∀ c : Fin 3, Q (11 * Ns + (3 * b + c)))
    (h5 : ∀ b < Nd, ∀ c : Fin 3, Q (11 * Ns + 3 * Nd + (3 * b + c))) :
    ∀ i < 11 * Ns + 6 * Nd, Q i := by
  intro i hi
  by_cases c1 : i < 3 * Ns
  · have := h1 (i / 3) (by omega) ⟨i % 3, by omega⟩
    simpa [Nat.div_add_mod] using this
  by_cases c2 : i < 6 * Ns
  · have := h2 ((i - 3 * Ns) / 3) (by omega) ⟨(i - 3 * Ns) % 3, by omega⟩
    simp only [Nat.div_add_mod] at this
    rwa [Nat.add_sub_cancel' (by omega)] at this
  by_cases c3 : i < 11 * Ns
  · have := h3 ((i - 6 * Ns) / 5) (by omega) ⟨(i - 6 * Ns) % 5, by omega⟩
    simp only [Nat.div_add_mod] at this
    rwa [Nat.add_sub_cancel' (by omega)] at this
  by_cases c4 : i < 11 * Ns + 3 * Nd
  · have := h4 ((i - 11 * Ns) / 3) (by omega) ⟨(i - 11 * Ns) % 3, by omega⟩
    simp only [Nat.div_add_mod] at this
    rwa [Nat.add_sub_cancel' (by omega)] at this
  · have := h5 ((i - (11 * Ns + 3 * Nd)) / 3) (by omega)
      ⟨(i - (11 * Ns + 3 * Nd)) % 3, by omega⟩
    simp only [Nat.div_add_mod] at this
    rwa [Nat.add_sub_cancel' (by omega)] at this

section
variable {Ns Nd : ℕ} (u o : List Vec3) (e : List Mat3) (ub hd : List Vec3)

theorem pack_u {a : ℕ} (ha : a < Ns) (c : Fin 3) :
    pack Ns Nd u o e ub hd (3 * a + c) = u.getD a 0 c := by
  unfold pack
  rw [if_pos (by omega)]
  have h1 : (3 * a + (c : ℕ)) / 3 = a := by omega
  have h2 : (3 * a + (c : ℕ)) % 3 = c := by omega
  simp only [h1, h2]

theorem pack_o {a : ℕ} (ha : a < Ns) (c : Fin 3) :
    pack Ns Nd u o e ub hd (3 * Ns + (3 * a + c)) = o.getD a 0 c := by
  unfold pack
  rw [if_neg (by omega), if_pos (by omega)]
  have h1 : (3 * Ns + (3 * a + (c : ℕ)) - 3 * Ns) / 3 = a := by omega
  have h2 : (3 * Ns + (3 * a + (c : ℕ)) - 3 * Ns) % 3 = c := by omega
  simp only [h1, h2]

theorem pack_e {a : ℕ} (ha : a < Ns) (c : Fin 5) :
    pack Ns Nd u o e ub hd (6 * Ns + (5 * a + c)) = five (e.getD a 0) c := by
  unfold pack
  rw [if_neg (by omega), if_neg (by omega), if_pos (by omega)]
  have h1 : (6 * Ns + (5 * a + (c : ℕ)) - 6 * Ns) / 5 = a := by omega
  have h2 : (6 * Ns + (5 * a + (c : ℕ)) - 6 * Ns) % 5 = c := by omega
  simp only [h1, h2]

theorem pack_ub {b : ℕ} (hb : b < Nd) (c : Fin 3) :
    pack Ns Nd u o e ub hd (11 * Ns + (3 * b + c)) = ub.getD b 0 c := by
  unfold pack
  rw [if_neg (by omega), if_neg (by omega), if_neg (by omega), if_pos (by omega)]
  have h1 : (11 * Ns + (3 * b + (c : ℕ)) - 11 * Ns) / 3 = b := by omega
  have h2 : (11 * Ns + (3 * b + (c : ℕ)) - 11 * Ns) % 3 = c := by omega
  simp only [h1, h2]

theorem pack_hd {b : ℕ} (_hb : b < Nd) (c : Fin 3) :
    pack Ns Nd u o e ub hd (11 * Ns + 3 * Nd + (3 * b + c)) = hd.getD b 0 c := by
  unfold pack
  rw [if_neg (by omega), if_neg (by omega), if_neg (by omega), if_neg (by omega)]
  have h1 : (11 * Ns + 3 * Nd + (3 * b + (c : ℕ)) - (11 * Ns + 3 * Nd)) / 3 = b := by omega
  have h2 : (11 * Ns + 3 * Nd + (3 * b + (c : ℕ)) - (11 * Ns + 3 * Nd)) % 3 = c := by omega
  simp only [h1, h2]

end

/-! ## Flattening -/

theorem flatten3_length (f : List Vec3) : (flatten3 f).length = 3 * f.length := by
  induction f with
  | nil => rfl
  | cons v f ih =>
    have : flatten3 (v :: f) = [v 0, v 1, v 2] ++ flatten3 f := rfl
    rw [this, List.length_append, ih]; simp; ring

theorem flatten3_getD (f : List Vec3) (a : ℕ) (c : Fin 3) :
    (flatten3 f).getD (3 * a + c) 0 = f.getD a 0 c := by
  induction f generalizing a with
  | nil => simp [flatten3]
  | cons v f ih =>
    have hcons : flatten3 (v :: f) = [v 0, v 1, v 2] ++ flatten3 f := rfl
    rw [hcons]
    cases a with
    | zero => fin_cases c <;> simp
    | succ a =>
      rw [List.getD_append_right _ _ _ _ (by simp; omega), List.getD_cons_succ, ← ih]
      congr 1
      simp; omega

theorem condFlat_cons (m : Mat3) (s : List Mat3) :
    condense_and_flatten (m :: s) = List.ofFn (five m) ++ condense_and_flatten s := by
  unfold condense_and_flatten
  rw [List.flatMap_cons, flatOne_eq]

theorem condFlat_length (s : List Mat3) : (condense_and_flatten s).length = 5 * s.length := by
  induction s with
  | nil => rfl
  | cons m s ih => rw [condFlat_cons, List.length_append, ih]; simp; ring

theorem condFlat_getD (s : List Mat3) (a : ℕ) (c : Fin 5) (ha : a < s.length) :
    (condense_and_flatten s).getD (5 * a + c) 0 = five (s.getD a 0) c := by
  induction s generalizing a with
  | nil => simp at ha
  | cons m s ih =>
    rw [condFlat_cons]
    cases a with
    | zero =>
      rw [List.getD_append _ _ _ _ (by simp), List.getD_cons_zero]
      fin_cases c <;> simp
    | succ a =>
      rw [List.getD_append_right _ _ _ _ (by simp; omega), List.getD_cons_succ,
        ← ih a (by simpa using ha)]
      congr 1
      simp; omega

theorem construct_length {Ns Nd : ℕ} {f t : List Vec3} {s : List Mat3} {fb dfb : List Vec3}
    (hf : 0 < Ns → f.length = Ns) (ht : 0 < Ns → t.length = Ns) (hs : Ns ≤ s.length)
    (hfb : 0 < Nd → fb.length = Nd)
    (hdfb : 0 < Nd → dfb.length = Nd) :
    (construct_force_vector_from_fts Ns Nd f t s fb dfb).length = 11 * Ns + 6 * Nd := by
  unfold construct_force_vector_from_fts
  have hst : (s.take Ns).length = Ns := by simp [hs]
  split_ifs with h1 h2 h3
  · simp; omega
  · simp only [List.length_append, flatten3_length, condFlat_length, hst]
    have := hf h2.1; have := ht h2.1; omega
  · simp only [List.length_append, flatten3_length]
    have := hfb h3.2; have := hdfb h3.2; omega
  · simp only [List.length_append, flatten3_length, condFlat_length, hst]
    have := hf (by omega); have := ht (by omega); have := hfb (by omega); have := hdfb (by omega)
    omega

theorem getD_app_left {α : Type*} (l r : List α) (d : α) {i : ℕ} (h : i < l.length) :
    (l ++ r).getD i d = l.getD i d := List.getD_append _ _ _ _ h

theorem getD_app_right {α : Type*} (l r : List α) (d : α) {n i : ℕ} (h : l.length = n) :
    (l ++ r).getD (n + i) d = r.getD i d := by
  rw [List.getD_append_right _ _ _ _ (by omega)]; congr 1; omega

theorem construct_getD {Ns Nd : ℕ} {f t : List Vec3} {s : List Mat3} {fb dfb : List Vec3}
    (hf : 0 < Ns → f.length = Ns) (ht : 0 < Ns → t.length = Ns) (hs : Ns ≤ s.length)
    (hfb : 0 < Nd → fb.length = Nd)
    (hdfb : 0 < Nd → dfb.length = Nd) :
    ∀ i < 11 * Ns + 6 * Nd, (construct_force_vector_from_fts Ns Nd f t s fb dfb).getD i 0
      = pack Ns Nd f t s fb dfb i := by
  have hst : (s.take Ns).length = Ns := by simp [hs]
  have hL : ∀ i < 11 * Ns + 6 * Nd, (construct_force_vector_from_fts Ns Nd f t s fb dfb).getD i 0
      = (flatten3 (f.take Ns) ++ (flatten3 (t.take Ns) ++ (condense_and_flatten (s.take Ns) ++
          (flatten3 (fb.take Nd) ++ flatten3 (dfb.take Nd))))).getD i 0 := by
    intro i hi
    unfold construct_force_vector_from_fts
    have e0 : ∀ l : List Vec3, flatten3 (l.take 0) = [] := fun l => by simp [flatten3]
    split_ifs with h1 h2 h3
    · omega
    · have a := hf h2.1
      have b := ht h2.1
      rw [h2.2, e0, e0, List.append_nil, List.append_nil, List.take_of_length_le a.le,
        List.take_of_length_le b.le, List.append_assoc]
    · have a := hfb h3.2
      have b := hdfb h3.2
      rw [h3.1, e0, e0, List.take_of_length_le a.le, List.take_of_length_le b.le]
      simp [condense_and_flatten]
    · have a := hf (by omega)
      have b := ht (by omega)
      have c := hfb (by omega)
      have d := hdfb (by omega)
      rw [List.take_of_length_le a.le, List.take_of_length_le b.le, List.take_of_length_le c.le,
        List.take_of_length_le d.le]
      simp only [List.append_assoc]
  have hsx : ∀ a < Ns, (s.take Ns).getD a 0 = s.getD a 0 := by
    intro a ha; simp [List.getD, ha]
  have htk : ∀ (l : List Vec3) (n a : ℕ), a < n → (l.take n).getD a 0 = l.getD a 0 := by
    intro l n a ha; simp [List.getD, ha]
  have lf : 0 < Ns → (flatten3 (f.take Ns)).length = 3 * Ns := by
    intro h; rw [flatten3_length]; simp [hf h]
  have lt : 0 < Ns → (flatten3 (t.take Ns)).length = 3 * Ns := by
    intro h; rw [flatten3_length]; simp [ht h]
  have ls : (condense_and_flatten (s.take Ns)).length = 5 * Ns := by
    rw [condFlat_length, hst]
  have lfb : 0 < Nd → (flatten3 (fb.take Nd)).length = 3 * Nd := by
    intro h; rw [flatten3_length]; simp [hfb h]
  have lf' : (flatten3 (f.take Ns)).length = 3 * Ns := by
    rcases Nat.eq_zero_or_pos Ns with h | h
    · subst h; simp [flatten3]
    · exact lf h
  have lt' : (flatten3 (t.take Ns)).length = 3 * Ns := by
    rcases Nat.eq_zero_or_pos Ns with h | h
    · subst h; simp [flatten3]
    · exact lt h
  apply grand_cases
  · intro a ha c
    rw [hL _ (by omega), getD_app_left _ _ _ (by rw [lf']; omega), flatten3_getD, htk _ _ _ ha,
      pack_u _ _ _ _ _ ha]
  · intro a ha c
    rw [hL _ (by omega), getD_app_right _ _ _ lf', getD_app_left _ _ _ (by rw [lt']; omega),
      flatten3_getD, htk _ _ _ ha, pack_o _ _ _ _ _ ha]
  · intro a ha c
    rw [hL _ (by omega), show 6 * Ns + (5 * a + (c : ℕ)) = 3 * Ns + (3 * Ns + (5 * a + c)) by ring,
      getD_app_right _ _ _ lf', getD_app_right _ _ _ lt', getD_app_left _ _ _ (by rw [ls]; omega),
      condFlat_getD _ _ _ (by rw [hst]; exact ha), hsx a ha,
      show 3 * Ns + (3 * Ns + (5 * a + (c : ℕ))) = 6 * Ns + (5 * a + c) by ring,
      pack_e _ _ _ _ _ ha]
  · intro b hb c
    rw [hL _ (by omega),
      show 11 * Ns + (3 * b + (c : ℕ)) = 3 * Ns + (3 * Ns + (5 * Ns + (3 * b + c))) by ring,
      getD_app_right _ _ _ lf', getD_app_right _ _ _ lt', getD_app_right _ _ _ ls,
      getD_app_left _ _ _ (by rw [lfb (by omega)]; omega), flatten3_getD, htk _ _ _ hb,
      show 3 * Ns + (3 * Ns + (5 * Ns + (3 * b + (c : ℕ)))) = 11 * Ns + (3 * b + c) by ring,
      pack_ub _ _ _ _ _ hb]
  · intro b hb c
    rw [hL _ (by omega),
      show 11 * Ns + 3 * Nd + (3 * b + (c : ℕ))
        = 3 * Ns + (3 * Ns + (5 * Ns + (3 * Nd + (3 * b + c)))) by ring,
      getD_app_right _ _ _ lf', getD_app_right _ _ _ lt', getD_app_right _ _ _ ls,
      getD_app_right _ _ _ (lfb (by omega)), flatten3_getD, htk _ _ _ hb,
      show 3 * Ns + (3 * Ns + (5 * Ns + (3 * Nd + (3 * b + (c : ℕ)))))
        = 11 * Ns + 3 * Nd + (3 * b + c) by ring,
      pack_hd _ _ _ _ _ hb]

/-! ## Deconstruction -/

theorem reshape3_getD (v : List ℝ) (o n a : ℕ) (ha : a < n) (c : Fin 3) :
    (reshape3 v o n).getD a 0 c = v.getD (o + (3 * a + c)) 0 := by
  unfold reshape3
  rw [List.getD_eq_getElem _ _ (by simpa using ha)]
  simp

theorem reshape5_getD (v : List ℝ) (o n a : ℕ) (ha : a < n) (c : Fin 5) :
    (reshape5 v o n).getD a 0 c = v.getD (o + (5 * a + c)) 0 := by
  unfold reshape5
  rw [List.getD_eq_getElem _ _ (by simpa using ha)]
  simp

theorem deconstruct_pack (Ns Nd : ℕ) (v : List ℝ) :
    ∀ i < 11 * Ns + 6 * Nd,
      pack Ns Nd (deconstruct_velocity_vector_for_fts Ns Nd v).u
        (deconstruct_velocity_vector_for_fts Ns Nd v).o
        (deconstruct_velocity_vector_for_fts Ns Nd v).e
        (deconstruct_velocity_vector_for_fts Ns Nd v).ub
        (deconstruct_velocity_vector_for_fts Ns Nd v).hdub i = v.getD i 0 := by
  unfold deconstruct_velocity_vector_for_fts
  apply grand_cases
  · intro a ha c; rw [pack_u _ _ _ _ _ ha, reshape3_getD _ _ _ _ ha, Nat.zero_add]
  · intro a ha c; rw [pack_o _ _ _ _ _ ha, reshape3_getD _ _ _ _ ha]
  · intro a ha c
    rw [pack_e _ _ _ _ _ ha]
    have hlen : a < (reshape5 v (6 * Ns) Ns).length := by simpa [reshape5] using ha
    have : (uncondense (reshape5 v (6 * Ns) Ns)).getD a 0
        = uncondenseOne ((reshape5 v (6 * Ns) Ns).getD a 0) := by
      unfold uncondense
      rw [List.getD_eq_getElem _ _ (by simpa using hlen), List.getD_eq_getElem _ _ hlen,
        List.getElem_map]
    rw [this, five_uncondense, reshape5_getD _ _ _ _ ha]
  · intro a ha c; rw [pack_ub _ _ _ _ _ ha, reshape3_getD _ _ _ _ ha]
  · intro a ha c; rw [pack_hd _ _ _ _ _ ha, reshape3_getD _ _ _ _ ha]

theorem reshape3_length (v : List ℝ) (o n : ℕ) : (reshape3 v o n).length = n := by
  simp [reshape3]

theorem uncondense_reshape_length (v : List ℝ) (o n : ℕ) :
    (uncondense (reshape5 v o n)).length = n := by
  simp [uncondense, reshape5]

end SD
