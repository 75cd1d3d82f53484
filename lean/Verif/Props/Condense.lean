import Verif.Lemmas.Grand

/-!
# C01, C02, C03: condensation and grand vectors
-/

set_option autoImplicit false

namespace SD

open Finset Spec

/-- **C01** (first half). Expanding the condensed form of symmetric traceless matrices returns the
matrices. -/
theorem C01_uncondense_condense (s : List Mat3) (h : ∀ m ∈ s, SymTraceless m) :
    uncondense (condense s) = s := by
  unfold uncondense condense
  rw [List.map_map]
  conv_rhs => rw [← List.map_id s]
  apply List.map_congr_left
  intro m hm
  show uncondenseOne (condenseOne m) = m
  rw [condenseOne_eq, uncondense_five m (h m hm)]

/-- **C01** (second half). Expanding any 5-vectors gives symmetric traceless matrices, whose
condensation, in either of the code's two implementations, is the original list. -/
theorem C01_condense_uncondense (e : List Vec5) :
    (∀ m ∈ uncondense e, SymTraceless m) ∧ condense (uncondense e) = e ∧
    condense_and_flatten (uncondense e) = e.flatMap List.ofFn := by
  refine ⟨?_, ?_, ?_⟩
  · intro m hm
    obtain ⟨x, -, rfl⟩ := List.mem_map.mp hm
    exact uncondense_symTraceless x
  · unfold uncondense condense
    rw [List.map_map]
    conv_rhs => rw [← List.map_id e]
    apply List.map_congr_left
    intro m _
    show condenseOne (uncondenseOne m) = m
    rw [condenseOne_eq, five_uncondense]
  · unfold uncondense condense_and_flatten
    rw [List.flatMap_map]
    congr 1
    funext m
    congr 1
    funext j
    have : condenseOne (uncondenseOne m) j = m j := by rw [condenseOne_eq, five_uncondense]
    rw [← this]
    unfold condenseOne
    rw [Finset.sum_comm]

/-- A symmetric traceless matrix with all five independent components different from zero. -/
noncomputable def demoS : Mat3 := ![![1, 2, 3], ![2, 4, 5], ![3, 5, -5]]

theorem demoS_ok : SymTraceless demoS := by
  refine ⟨?_, by simp only [demoS, Matrix.cons_val]; norm_num⟩
  intro i j; fin_cases i <;> fin_cases j <;> rfl

example : uncondense (condense [demoS, demoS]) = [demoS, demoS] :=
  C01_uncondense_condense _ (by
    intro m hm; simp at hm; rw [hm]; exact demoS_ok)

/-- The hypothesis is needed: a matrix with non-zero trace is not recovered. -/
example : uncondense (condense [fun _ _ => 1]) ≠ [fun _ _ => 1] := by
  intro h
  have h1 : uncondenseOne (condenseOne fun _ _ => 1) = fun _ _ => 1 := by
    simpa [uncondense, condense] using h
  have h2 := (uncondense_symTraceless (condenseOne fun _ _ => 1)).2
  rw [h1] at h2
  norm_num at h2

/-- **C02** (per particle). The dot product of condensed 5-vectors is the double contraction. -/
theorem C02_condensed_power (S E : Mat3) (hS : SymTraceless S) (hE : SymTraceless E) :
    ∑ j, condenseOne S j * condenseOne E j = ∑ k, ∑ l, S k l * E k l := by
  rw [condenseOne_eq, condenseOne_eq]
  have a1 := hS.1 0 1; have a2 := hS.1 0 2; have a3 := hS.1 1 2
  have b1 := hE.1 0 1; have b2 := hE.1 0 2; have b3 := hE.1 1 2
  have t1 : S 2 2 = - S 0 0 - S 1 1 := by linarith [hS.2]
  have t2 : E 2 2 = - E 0 0 - E 1 1 := by linarith [hE.2]
  simp only [Fin.sum_univ_five, Fin.sum_univ_three, five]
  simp only [Matrix.cons_val]
  rw [← a1, ← a2, ← a3, ← b1, ← b2, ← b3, t1, t2]
  have h3 := s3sq
  have h2 := s2sq
  linear_combination (S 0 0 * E 0 0 / 2 + S 1 1 * E 1 1 / 2
      + S 0 0 * E 1 1 / 2 + S 1 1 * E 0 0 / 2) * h3
    + (S 0 1 * E 0 1 + S 0 2 * E 0 2 + S 1 2 * E 1 2) * h2

example : ∑ j, condenseOne demoS j * condenseOne demoS j = 118 := by
  rw [C02_condensed_power _ _ demoS_ok demoS_ok]
  simp [Fin.sum_univ_three, demoS]; norm_num

/-- The power `Σ F·U + Σ T·O + Σ S:E + Σ Fb·Ub + Σ DFb·HalfDUb` written particle by particle. -/
noncomputable def powerSum (Ns Nd : ℕ) (F T : List Vec3) (S : List Mat3) (Fb DFb : List Vec3)
    (U O : List Vec3) (E : List Mat3) (Ub HD : List Vec3) : ℝ :=
  (∑ a ∈ range Ns, ∑ c, F.getD a 0 c * U.getD a 0 c)
  + (∑ a ∈ range Ns, ∑ c, T.getD a 0 c * O.getD a 0 c)
  + (∑ a ∈ range Ns, ∑ k, ∑ l, S.getD a 0 k l * E.getD a 0 k l)
  + (∑ b ∈ range Nd, ∑ c, Fb.getD b 0 c * Ub.getD b 0 c)
  + (∑ b ∈ range Nd, ∑ c, DFb.getD b 0 c * HD.getD b 0 c)

theorem sum_blocks (g : ℕ → ℝ) (m n o : ℕ) :
    ∑ i ∈ range (m * n), g (o + i) = ∑ a ∈ range n, ∑ c : Fin m, g (o + (m * a + c)) := by
  induction n with
  | zero => simp
  | succ n ih =>
    rw [Nat.mul_succ, sum_range_add, ih, sum_range_succ, Finset.sum_range fun i => g (o + (m * n + i))]

/-- **C02** (whole suspension). The dot product of the grand force vector built by the code and the
grand velocity vector built by the code is the power, for any numbers of particles. -/
theorem C02_grand_power {Ns Nd : ℕ} {F T : List Vec3} {S : List Mat3} {Fb DFb : List Vec3}
    {U O : List Vec3} {E : List Mat3} {Ub HD : List Vec3}
    (hF : F.length = Ns) (hT : T.length = Ns) (hS : S.length = Ns) (hFb : Fb.length = Nd)
    (hDFb : DFb.length = Nd) (hU : U.length = Ns) (hO : O.length = Ns) (hE : E.length = Ns)
    (hUb : Ub.length = Nd) (hHD : HD.length = Nd)
    (sS : ∀ m ∈ S, SymTraceless m) (sE : ∀ m ∈ E, SymTraceless m) :
    ∑ i ∈ range (11 * Ns + 6 * Nd),
        (construct_force_vector_from_fts Ns Nd F T S Fb DFb).getD i 0
          * (construct_force_vector_from_fts Ns Nd U O E Ub HD).getD i 0
      = powerSum Ns Nd F T S Fb DFb U O E Ub HD := by
  have e : ∀ i ∈ range (11 * Ns + 6 * Nd),
      (construct_force_vector_from_fts Ns Nd F T S Fb DFb).getD i 0
          * (construct_force_vector_from_fts Ns Nd U O E Ub HD).getD i 0
      = pack Ns Nd F T S Fb DFb i * pack Ns Nd U O E Ub HD i := by
    intro i hi
    rw [construct_getD (fun _ => hF) (fun _ => hT) hS.ge (fun _ => hFb) (fun _ => hDFb) i
      (mem_range.mp hi),
      construct_getD (fun _ => hU) (fun _ => hO) hE.ge (fun _ => hUb) (fun _ => hHD) i
      (mem_range.mp hi)]
  rw [sum_congr rfl e]
  have n1 : 11 * Ns + 6 * Nd = 3 * Ns + 3 * Ns + 5 * Ns + 3 * Nd + 3 * Nd := by ring
  rw [n1, sum_range_add, sum_range_add, sum_range_add, sum_range_add]
  unfold powerSum
  have B := sum_blocks (fun i => pack Ns Nd F T S Fb DFb i * pack Ns Nd U O E Ub HD i)
  refine congrArg₂ (· + ·) (congrArg₂ (· + ·) (congrArg₂ (· + ·) (congrArg₂ (· + ·) ?_ ?_) ?_) ?_)
    ?_
  · have := B 3 Ns 0
    simp only [Nat.zero_add] at this
    rw [this]
    refine sum_congr rfl fun a ha => sum_congr rfl fun c _ => ?_
    rw [pack_u _ _ _ _ _ (mem_range.mp ha), pack_u _ _ _ _ _ (mem_range.mp ha)]
  · rw [B 3 Ns (3 * Ns)]
    refine sum_congr rfl fun a ha => sum_congr rfl fun c _ => ?_
    rw [pack_o _ _ _ _ _ (mem_range.mp ha), pack_o _ _ _ _ _ (mem_range.mp ha)]
  · rw [B 5 Ns (3 * Ns + 3 * Ns)]
    refine sum_congr rfl fun a ha => ?_
    have ha' := mem_range.mp ha
    have hSa : SymTraceless (S.getD a 0) := by
      rw [List.getD_eq_getElem _ _ (by omega)]; exact sS _ (List.getElem_mem _)
    have hEa : SymTraceless (E.getD a 0) := by
      rw [List.getD_eq_getElem _ _ (by omega)]; exact sE _ (List.getElem_mem _)
    rw [← C02_condensed_power _ _ hSa hEa]
    refine sum_congr rfl fun c _ => ?_
    have e6 : 3 * Ns + 3 * Ns = 6 * Ns := by ring
    rw [e6, pack_e _ _ _ _ _ ha', pack_e _ _ _ _ _ ha', condenseOne_eq, condenseOne_eq]
  · rw [B 3 Nd (3 * Ns + 3 * Ns + 5 * Ns)]
    refine sum_congr rfl fun a ha => sum_congr rfl fun c _ => ?_
    have e6 : 3 * Ns + 3 * Ns + 5 * Ns = 11 * Ns := by ring
    rw [e6, pack_ub _ _ _ _ _ (mem_range.mp ha), pack_ub _ _ _ _ _ (mem_range.mp ha)]
  · rw [B 3 Nd (3 * Ns + 3 * Ns + 5 * Ns + 3 * Nd)]
    refine sum_congr rfl fun a ha => sum_congr rfl fun c _ => ?_
    have e6 : 3 * Ns + 3 * Ns + 5 * Ns + 3 * Nd = 11 * Ns + 3 * Nd := by ring
    rw [e6, pack_hd _ _ _ _ _ (mem_range.mp ha), pack_hd _ _ _ _ _ (mem_range.mp ha)]

/-- One sphere and one dumbbell with non-trivial data. -/
example : ∑ i ∈ range (11 * 1 + 6 * 1),
    (construct_force_vector_from_fts 1 1 [![1, 2, 3]] [![0, 1, 0]] [demoS] [![1, 0, 0]]
        [![0, 0, 2]]).getD i 0
      * (construct_force_vector_from_fts 1 1 [![1, 1, 1]] [![5, 6, 7]] [demoS] [![3, 0, 0]]
        [![0, 0, 4]]).getD i 0 = 6 + 6 + 118 + 3 + 8 := by
  rw [C02_grand_power (Ns := 1) (Nd := 1) rfl rfl rfl rfl rfl rfl rfl rfl rfl rfl
    (by intro m hm; simp at hm; rw [hm]; exact demoS_ok)
    (by intro m hm; simp at hm; rw [hm]; exact demoS_ok)]
  simp [powerSum, Fin.sum_univ_three, demoS]; norm_num

/-- **C03** (packing). The grand vector has length `11 Ns + 6 Nd` and every component of every
particle sits at its documented place, for any counts including zero. -/
theorem C03_pack {Ns Nd : ℕ} {f t : List Vec3} {s : List Mat3} {fb dfb : List Vec3}
    (hf : f.length = Ns) (ht : t.length = Ns) (hs : s.length = Ns) (hfb : fb.length = Nd)
    (hdfb : dfb.length = Nd) :
    (construct_force_vector_from_fts Ns Nd f t s fb dfb).length = 11 * Ns + 6 * Nd ∧
    ∀ i < 11 * Ns + 6 * Nd,
      (construct_force_vector_from_fts Ns Nd f t s fb dfb).getD i 0 = pack Ns Nd f t s fb dfb i :=
  ⟨construct_length (fun _ => hf) (fun _ => ht) hs.ge (fun _ => hfb) (fun _ => hdfb),
    construct_getD (fun _ => hf) (fun _ => ht) hs.ge (fun _ => hfb) (fun _ => hdfb)⟩

/-- **C03** (round trip). Unpacking the packed vector returns each particle's own values. -/
theorem C03_round_trip {Ns Nd : ℕ} {f t : List Vec3} {s : List Mat3} {fb dfb : List Vec3}
    (hf : f.length = Ns) (ht : t.length = Ns) (hs : s.length = Ns) (hfb : fb.length = Nd)
    (hdfb : dfb.length = Nd) (sym : ∀ m ∈ s, SymTraceless m) :
    deconstruct_velocity_vector_for_fts Ns Nd (construct_force_vector_from_fts Ns Nd f t s fb dfb)
      = ⟨f, t, s, fb, dfb⟩ := by
  set v := construct_force_vector_from_fts Ns Nd f t s fb dfb with hv
  have hg : ∀ i < 11 * Ns + 6 * Nd, v.getD i 0 = pack Ns Nd f t s fb dfb i :=
    (C03_pack hf ht hs hfb hdfb).2
  unfold deconstruct_velocity_vector_for_fts
  have r3 : ∀ (o n : ℕ) (l : List Vec3), l.length = n →
      (∀ a < n, ∀ c : Fin 3, v.getD (o + (3 * a + c)) 0 = l.getD a 0 c) → reshape3 v o n = l := by
    intro o n l hl h
    apply List.ext_getElem
    · rw [reshape3_length, hl]
    intro i h1 h2
    have hi : i < n := hl ▸ h2
    funext c
    have := reshape3_getD v o n i hi c
    rw [List.getD_eq_getElem _ _ h1] at this
    rw [this, h i hi c, List.getD_eq_getElem _ _ h2]
  have e1 := r3 0 Ns f hf (by
    intro a ha c
    have hc := c.isLt
    rw [Nat.zero_add, hg _ (by omega), pack_u _ _ _ _ _ ha])
  have e2 := r3 (3 * Ns) Ns t ht (by
    intro a ha c
    have hc := c.isLt
    rw [hg _ (by omega), pack_o _ _ _ _ _ ha])
  have e4 := r3 (11 * Ns) Nd fb hfb (by
    intro a ha c
    have hc := c.isLt
    rw [hg _ (by omega), pack_ub _ _ _ _ _ ha])
  have e5 := r3 (11 * Ns + 3 * Nd) Nd dfb hdfb (by
    intro a ha c
    have hc := c.isLt
    rw [hg _ (by omega), pack_hd _ _ _ _ _ ha])
  have e3 : uncondense (reshape5 v (6 * Ns) Ns) = s := by
    apply List.ext_getElem
    · rw [uncondense_reshape_length, hs]
    intro i h1 h2
    have hi : i < Ns := hs ▸ h2
    have h3 : i < (reshape5 v (6 * Ns) Ns).length := by simpa [reshape5] using hi
    have hmap : (uncondense (reshape5 v (6 * Ns) Ns))[i]
        = uncondenseOne (reshape5 v (6 * Ns) Ns)[i] := List.getElem_map _
    rw [hmap]
    have : (reshape5 v (6 * Ns) Ns)[i] = five s[i] := by
      funext c
      have hc := c.isLt
      have := reshape5_getD v (6 * Ns) Ns i hi c
      rw [List.getD_eq_getElem _ _ h3] at this
      rw [this, hg _ (by omega), pack_e _ _ _ _ _ hi, List.getD_eq_getElem _ _ h2]
    rw [this, uncondense_five _ (sym _ (List.getElem_mem _))]
  simp only
  rw [e1, e2, e3, e4, e5]

/-- **C03** (unpacking). Any vector of the right length, unpacked and packed again, is unchanged. -/
theorem C03_round_trip' {Ns Nd : ℕ} (v : List ℝ) (hv : v.length = 11 * Ns + 6 * Nd) :
    let d := deconstruct_velocity_vector_for_fts Ns Nd v
    construct_force_vector_from_fts Ns Nd d.u d.o d.e d.ub d.hdub = v := by
  intro d
  have l1 : d.u.length = Ns := reshape3_length _ _ _
  have l2 : d.o.length = Ns := reshape3_length _ _ _
  have l3 : d.e.length = Ns := uncondense_reshape_length _ _ _
  have l4 : d.ub.length = Nd := reshape3_length _ _ _
  have l5 : d.hdub.length = Nd := reshape3_length _ _ _
  have h := C03_pack l1 l2 l3 l4 l5
  apply List.ext_getElem (h.1.trans hv.symm)
  intro i h1 h2
  have a := h.2 i (hv ▸ h2)
  rw [deconstruct_pack Ns Nd v i (hv ▸ h2), List.getD_eq_getElem _ _ h1,
    List.getD_eq_getElem _ _ h2] at a
  exact a

example : deconstruct_velocity_vector_for_fts 1 2 (construct_force_vector_from_fts 1 2
    [![1, 2, 3]] [![4, 5, 6]] [demoS] [![7, 8, 9], ![1, 0, 1]] [![2, 2, 2], ![0, 3, 0]])
    = ⟨[![1, 2, 3]], [![4, 5, 6]], [demoS], [![7, 8, 9], ![1, 0, 1]], [![2, 2, 2], ![0, 3, 0]]⟩ :=
  C03_round_trip rfl rfl rfl rfl rfl (by intro m hm; simp at hm; rw [hm]; exact demoS_ok)

end SD
