import Verif.Props.ShippedTable
import Verif.Lemmas.AxialTwist

/-!
# The table that comes with the program, for beads of very different sizes (C87)

For a small sphere next to one a hundred times as large the energy gained from the shipped table is more than what
the far field takes out: the complete resistance matrix is not positive definite.
-/

set_option autoImplicit false

namespace SD

open Spec Near

theorem shipped_hundred : lamIndex shippedTable 100 = some 4 := by
  refine ((C22_ratio shippedTable 100).1 4).mpr ⟨by simp [shippedTable], by simp [shippedTable]; norm_num, ?_⟩
  intro m hm
  interval_cases m <;> norm_num [shippedTable, abs_of_pos, abs_of_neg]

theorem hundred_9 : shippedRaw 3 0 9 4 < -(9 * 30223145490365729367654) := by decide +kernel

theorem hundred_10 : shippedRaw 3 0 10 4 < -(17 * 30223145490365729367654) := by decide +kernel

theorem hundred_11 : shippedRaw 3 0 11 4 < 30223145490365729367654 := by decide +kernel

/-- Resistance of the small sphere to turning about the line of centres. -/
theorem hundred_twist {s : ℝ} (h1 : 2.012 ≤ s) (h2 : s ≤ 2.021) : (tableScal shippedTable 0 100 s).XC < -1.005 := by
  norm_num at h1 h2
  have e0 : (tableScal shippedTable 0 100 s).XC = XYZ shippedTable 3 0 s 4 := by
    rw [tableScal, shipped_hundred]; rfl
  have d9 : shippedTable.sDash.getD 9 0 = 2.01 := by rw [shipped_node]; norm_num [shippedDist]
  have d10 : shippedTable.sDash.getD 10 0 = 2.02 := by rw [shipped_node]; norm_num [shippedDist]
  have d11 : shippedTable.sDash.getD 11 0 = 2.025 := by rw [shipped_node]; norm_num [shippedDist]
  have r9 : shippedTable.raw 3 0 9 4 < -0.9 + 1 / 10 ^ 6 := by
    have : (shippedRaw 3 0 9 4 : ℝ) < -(9 * 30223145490365729367654) := by exact_mod_cast hundred_9
    simp only [shippedTable]
    rw [div_lt_iff₀ (by positivity)]
    refine this.trans ?_
    norm_num
  have r10 : shippedTable.raw 3 0 10 4 < -1.7 + 1 / 10 ^ 6 := by
    have : (shippedRaw 3 0 10 4 : ℝ) < -(17 * 30223145490365729367654) := by exact_mod_cast hundred_10
    simp only [shippedTable]
    rw [div_lt_iff₀ (by positivity)]
    refine this.trans ?_
    norm_num
  have r11 : shippedTable.raw 3 0 11 4 < 0.1 + 1 / 10 ^ 6 := by
    have : (shippedRaw 3 0 11 4 : ℝ) < 30223145490365729367654 := by exact_mod_cast hundred_11
    simp only [shippedTable]
    rw [div_lt_iff₀ (by positivity)]
    refine this.trans ?_
    norm_num
  rw [e0, XYZ]
  have hlen := shipped_len
  by_cases h : s ≤ 2.02
  · rw [interp_inside (k := 9) shipped_ascending _ (by omega) (by rw [d9]; norm_num; linarith) (by rw [d10]; exact h),
      d9, d10]
    norm_num at h r9 r10 ⊢
    nlinarith
  · push Not at h
    rw [interp_inside (k := 10) shipped_ascending _ (by omega) (by rw [d10]; exact h.le)
      (by rw [d11]; norm_num; linarith), d10, d11]
    norm_num at h r10 r11 ⊢
    nlinarith

theorem hundred_tabulated {P : PosData} (h2 : P.Ns = 2) (h0 : P.Nd = 0) {a : ℝ} (ha : 0 < a) (hs : radius P 0 = a)
    (hl : radius P 1 = 100 * a) (k : ℝ) : Tabulated shippedTable.lam P k := by
  have hb : beads P = 2 := by unfold beads; omega
  intro x hx y hy _
  rw [hb] at hx hy
  have e1 : 100 * a / a = 100 := by field_simp
  have e2 : a / (100 * a) = 1 / 100 := by field_simp
  have e3 : a / a = 1 := div_self ha.ne'
  have e4 : 100 * a / (100 * a) = 1 := div_self (by positivity)
  interval_cases x <;> interval_cases y <;> simp only [hs, hl, e1, e2, e3, e4]
  · exact ⟨1, by simp [shippedTable], by norm_num⟩
  · exact ⟨100, by simp [shippedTable], by norm_num⟩
  · exact ⟨1 / 100, by simp [shippedTable], by norm_num⟩
  · exact ⟨1, by simp [shippedTable], by norm_num⟩

/-- **C87.** A sphere of radius `a` and one of radius `100 a`, between 2.012 and 2.021 average radii apart, in any
direction: with the table that comes with the program the resistance matrix of the two, far field included, is
computed but is not positive definite. If the small sphere turns about the line of centres and nothing else moves,
the fluid does work on it. -/
theorem C87_gain {P : PosData} (h2 : P.Ns = 2) (h0 : P.Nd = 0) {a : ℝ} (ha : 0 < a) (hs : radius P 0 = a)
    (hl : radius P 1 = 100 * a) {s : ℝ} (hd : len (fun i => centre P 1 i - centre P 0 i) = s * (50.5 * a))
    (h1 : 2.012 ≤ s) (h3 : s ≤ 2.021) {k : ℝ} (hk : 1.011 ≤ k) (hP : Sensible P) {mu : ℝ} (hmu : 0 < mu) (bb : Bool)
    (last : NDMat) :
    ∃ R C, generate_grand_resistance_matrix shippedTable P last true k false false mu bb = some (R, C) ∧
      Symm R.get (side P) ∧ ¬ PosDef R.get (side P) ∧
      ∀ v : ℕ → ℝ, (∀ i, v (row P.Ns 0 (.t i)) = centre P 1 i - centre P 0 i) →
        (∀ x c, HasRow P.Ns P.Nd x c → (x ≠ 0 ∨ ∀ i, c ≠ .t i) → v (row P.Ns x c) = 0) →
        ∑ i ∈ Finset.range (side P), v i * mulVec (side P) R.get v i < 0 := by
  have hpi := Real.pi_pos
  have hb : beads P = 2 := by unfold beads; omega
  norm_num at h1 h3 hd hk
  have hS : Separate P := by
    have e : len (fun i => centre P 0 i - centre P 1 i) = s * (101 / 2 * a) := by
      rw [← hd]
      unfold len
      exact congrArg _ (Finset.sum_congr rfl fun i _ => by ring)
    intro x hx y hy hxy
    rw [hb] at hx hy
    interval_cases x <;> interval_cases y <;> first
      | exact absurd rfl hxy
      | (simp only [hs, hl, e, hd]; norm_num; nlinarith)
  obtain ⟨C, hC, hr, hc, hp⟩ := C59_inverse hP hS hmu (bb := bb) (.inr h0)
  obtain ⟨N, hN, n1, n2, n3, n4⟩ := near_form hP (show 0 < k by linarith) (hundred_tabulated h2 h0 ha hs hl k) mu bb
  have hCs := inv_symm hC (Minfinity_symm P mu bb)
  have hadd : ∀ (w : ℕ → ℝ) (i : ℕ), mulVec (side P) (N.add C).get w i
      = mulVec (side P) N.get w i + mulVec (side P) C.get w i := by
    intro w i
    unfold mulVec
    rw [← Finset.sum_add_distrib]
    exact Finset.sum_congr rfl fun j _ => by simp only [NDMat.add]; ring
  have hsy : Symm (N.add C).get (side P) := fun i _ j _ => by
    show N.get i j + C.get i j = N.get j i + C.get j i
    rw [n3 i j, hCs i j]
  set r : Fin 3 → ℝ := fun i => centre P 1 i - centre P 0 i with hrdef
  have hlr : 0 < len r := by rw [hd]; positivity
  have hrow : ∀ u < 2, ∀ c, HasRow P.Ns P.Nd u c := by
    intro u hu c
    cases c <;> simp only [HasRow] <;> omega
  have hn : side P = 11 * P.Ns := by unfold side; omega
  have main : ∀ v : ℕ → ℝ, (∀ i, v (row P.Ns 0 (.t i)) = r i) →
        (∀ x c, HasRow P.Ns P.Nd x c → (x ≠ 0 ∨ ∀ i, c ≠ .t i) → v (row P.Ns x c) = 0) →
        ∑ i ∈ Finset.range (side P), v i * mulVec (side P) (N.add C).get v i < 0 := by
    intro v hv0 hv
    have hvm : ∀ x c, HasRow P.Ns P.Nd x c → v (row P.Ns x c) = axialTo r (if x = 0 then 1 else 0) c := by
      intro x c hx
      by_cases h : x = 0
      · subst h
        cases c with
        | f i => rw [hv 0 (.f i) hx (.inr (by simp))]; rfl
        | t i => rw [hv0]; simp [axialTo]
        | s p => rw [hv 0 (.s p) hx (.inr (by simp))]; rfl
      · rw [hv x c hx (.inl h), if_neg h]
        cases c <;> simp [axialTo]
    -- the near field
    have near : ∑ i ∈ Finset.range (side P), v i * mulVec (side P) N.get v i
        = mu * (8 * Real.pi * (a ^ 3 * (tableScal shippedTable 0 100 s).XC * len r ^ 2)) := by
      have hid : ∀ i < side P, toDumbVel P.Ns P.Nd v i = v i := fun i hi => by
        unfold toDumbVel; rw [if_pos (by omega)]
      have e := n4 v
      rw [Finset.sum_congr rfl fun i hi => by rw [mulVec_congr hid, hid i (Finset.mem_range.mp hi)]] at e
      rw [e, hb]
      congr 1
      have m0 : moves P.Ns P.Nd v 0 = axialTo r 1 := by
        funext c
        unfold moves
        rw [if_pos (hrow 0 (by omega) c), hvm 0 c (hrow 0 (by omega) c), if_pos rfl]
      have m1 : moves P.Ns P.Nd v 1 = fun _ => 0 := by
        funext c
        unfold moves
        rw [if_pos (hrow 1 (by omega) c), hvm 1 c (hrow 1 (by omega) c), if_neg (by omega)]
        cases c <;> simp [axialTo]
      have hlink : openLink k (centre P) (radius P) 0 1 = some (fun i => r i / len r, s) := by
        unfold openLink
        dsimp only
        have em : (radius P 0 + radius P 1) / 2 = 101 / 2 * a := by rw [hs, hl]; ring
        have es : len r / (101 / 2 * a) = s := by rw [hd]; field_simp
        rw [em]
        change (if len r / (101 / 2 * a) < 2 * k then some (fun i => r i / len r, len r / (101 / 2 * a)) else none) = _
        rw [es, if_pos (by linarith)]
      rcases near_mutual hP (show 0 < k by linarith) 0 (by omega) 1 (by omega) (by omega) with ⟨h, -⟩ | ⟨d', s', hd', h, h'⟩
      · rw [h] at hlink; exact absurd hlink (by simp)
      · have hs' := shares_pair (Ns := P.Ns) (bb := bb) (radius := radius P) (scal := tableScal shippedTable)
          (moves P.Ns P.Nd v) (show 0 < 1 by omega) h h'
        rw [h] at hlink
        obtain ⟨rfl, rfl⟩ : d' = (fun i => r i / len r) ∧ s' = s := by simpa using hlink
        rw [if_neg (by omega), m0, m1] at hs'
        have h00 : ∀ x, share P.Ns bb (radius P) (tableScal shippedTable) (openLink k (centre P) (radius P))
            (moves P.Ns P.Nd v) x x = 0 := fun x => by unfold share; rw [if_pos rfl]
        simp only [Finset.sum_range_succ, Finset.sum_range_zero, h00, zero_add, add_zero]
        rw [hs', pair_twist hd' _ _ _ _ _ _ 1 (len r) r (by funext i; field_simp), hs, hl, one_mul,
          show 100 * a / a = 100 by field_simp]
    -- the far field
    set D := 1 / a ^ 3 - (100 * a) ^ 3 / len r ^ 6 with hD
    have hl6 : (100 * a) ^ 6 ≤ len r ^ 6 := by
      refine pow_le_pow_left₀ (by positivity) ?_ 6
      rw [hd]; nlinarith
    have hDpos : 999 / 1000 / a ^ 3 ≤ D := by
      have : (100 * a) ^ 3 / len r ^ 6 ≤ (100 * a) ^ 3 / (100 * a) ^ 6 := by gcongr
      have e : (100 * a) ^ 3 / (100 * a) ^ 6 = 1 / 10 ^ 6 * (1 / a ^ 3) := by field_simp; norm_num
      have : 0 < 1 / a ^ 3 := by positivity
      rw [hD, show (999 / 1000 : ℝ) / a ^ 3 = 999 / 1000 * (1 / a ^ 3) by ring]
      linarith
    have hD0 : 0 < D := lt_of_lt_of_le (by positivity) hDpos
    set T0 := 8 * Real.pi * mu / D with hT0
    obtain ⟨f, hf⟩ := exists_rows P fun x => axialTo r (if x = 0 then T0 else -T0 * (100 * a) ^ 3 / len r ^ 3)
    have hMf : ∀ i < side P, mulVec (side P) (generate_Minfinity P mu bb).get f i = v i := by
      intro i hi
      obtain ⟨u, c, hu, rfl⟩ := (C48_rows P).1 i hi
      rw [far_twist h2 h0 hP hS mu bb r hrdef (fun x => if x = 0 then T0 else -T0 * (100 * a) ^ 3 / len r ^ 3) f hf hu,
        hvm u c hu]
      have hu2 : u < 2 := by cases c <;> simp only [HasRow] at hu <;> omega
      congr 1
      interval_cases u
      · have e1 : T0 / a ^ 3 + -T0 * (100 * a) ^ 3 / len r ^ 3 / len r ^ 3 = T0 * D := by
          rw [hD]; field_simp; ring
        have e2 : T0 * D = 8 * Real.pi * mu := by rw [hT0]; field_simp
        simp only [if_true, hs]
        rw [if_neg (by norm_num), e1, e2]
        field_simp
      · have e1 : -T0 * (100 * a) ^ 3 / len r ^ 3 / (100 * a) ^ 3 + T0 / len r ^ 3 = 0 := by
          field_simp; ring
        simp only [hl, one_ne_zero, if_false, Nat.sub_self, if_true]
        rw [e1, mul_zero]
    have far : ∑ i ∈ Finset.range (side P), v i * mulVec (side P) C.get v i = T0 * len r ^ 2 := by
      have hCv : ∀ i < side P, mulVec (side P) C.get v i = f i := by
        intro i hi
        have hrr : (generate_Minfinity P mu bb).rows = side P := (Minfinity_dims P mu bb).1
        have := (inv_mulVec hC f (i := i) (by rw [hrr]; exact hi)).1
        rw [hrr] at this
        rw [← this]
        exact (mulVec_congr hMf i).symm
      rw [Finset.sum_congr rfl fun i hi => by rw [hCv i (Finset.mem_range.mp hi)],
        show side P = 11 * P.Ns + 6 * P.Nd from rfl, sum_rows, h2, h0]
      have hvm' := hvm
      have hf' := hf
      rw [h2] at hvm' hf'
      rw [h0] at hvm' hf'
      have hrow' : ∀ u < 2, ∀ c, HasRow 2 0 u c := by intro u hu c; have := hrow u hu c; rwa [h2, h0] at this
      simp only [mul_zero, add_zero, Finset.sum_range_succ, Finset.sum_range_zero, zero_add,
        hvm' 0 _ (hrow' 0 (by omega) _), hvm' 1 _ (hrow' 1 (by omega) _), hf' 0 _ (hrow' 0 (by omega) _),
        hf' 1 _ (hrow' 1 (by omega) _), axialTo, if_true, Finset.sum_const_zero, zero_mul, one_ne_zero, if_false]
      rw [len_sq3, Fin.sum_univ_three]
      ring
    simp only [hadd, mul_add, Finset.sum_add_distrib]
    rw [near, far]
    have hx := hundred_twist (s := s) (by norm_num; linarith) (by norm_num; linarith)
    have hT : T0 ≤ 8 * Real.pi * mu * (1.0011 * a ^ 3) := by
      rw [hT0, div_le_iff₀ hD0]
      have : 1 ≤ 1.0011 * a ^ 3 * D := by
        calc (1 : ℝ) ≤ 1.0011 * a ^ 3 * (999 / 1000 / a ^ 3) := by field_simp; norm_num
          _ ≤ _ := by gcongr
      nlinarith [mul_pos hpi hmu]
    have : mu * (8 * Real.pi * (a ^ 3 * (tableScal shippedTable 0 100 s).XC * len r ^ 2)) + T0 * len r ^ 2
        ≤ 8 * Real.pi * mu * a ^ 3 * len r ^ 2 * ((tableScal shippedTable 0 100 s).XC + 1.0011) := by
      have := mul_le_mul_of_nonneg_right hT (sq_nonneg (len r))
      linarith
    refine lt_of_le_of_lt this (mul_neg_of_pos_of_neg (by positivity) ?_)
    norm_num at hx ⊢
    linarith
  refine ⟨N.add C, C, ?_, hsy, fun hpd => ?_, main⟩
  · unfold generate_grand_resistance_matrix
    simp only [if_true, Option.bind_eq_bind]
    rw [hC, Option.bind_some, hN, Option.bind_some]
  · obtain ⟨v, hv⟩ := exists_rows P fun x => axialTo r (if x = 0 then 1 else 0)
    have hneg := main v (fun i => by rw [hv 0 (.t i) (hrow 0 (by omega) _)]; simp [axialTo]) (fun x c hx h => by
      rw [hv x c hx]
      rcases h with h | h
      · rw [if_neg h]; cases c <;> simp [axialTo]
      · cases c with
        | f i => rfl
        | t i => exact absurd rfl (h i)
        | s p => rfl)
    by_cases hz : ∃ i < side P, v i ≠ 0
    · exact absurd (posDef_iff.mp hpd v hz) (not_lt.mpr hneg.le)
    · push Not at hz
      rw [Finset.sum_eq_zero fun i hi => by rw [hz i (Finset.mem_range.mp hi), zero_mul]] at hneg
      exact lt_irrefl _ hneg

/-! ## Example -/

/-- A sphere of radius 1 and one of radius 100, 101.7575 apart in the direction (3, 0, 4). -/
noncomputable def dwarfP : PosData where
  Ns := 2
  Nd := 0
  sphereSize := fun i => if i = 0 then 1 else 100
  spherePos := fun i => if i = 0 then ![1, 2, 3] else ![1 + 3 * 20.3515, 2, 3 + 4 * 20.3515]
  dumbSize := fun _ => 1
  dumbPos := fun _ => 0
  dumbDx := fun _ => 0

theorem dwarfP_len {x y : ℕ} (hx : x < 2) (hy : y < 2) (hxy : x ≠ y) :
    len (fun i => centre dwarfP y i - centre dwarfP x i) = 2.015 * 50.5 := by
  unfold len
  rw [Fin.sum_univ_three]
  rw [show (2.015 * 50.5 : ℝ) = Real.sqrt ((2.015 * 50.5) ^ 2) from (Real.sqrt_sq (by norm_num)).symm]
  congr 1
  interval_cases x <;> interval_cases y <;> first
    | exact absurd rfl hxy
    | (simp [centre, dwarfP]; norm_num)

theorem dwarfP_sensible : Sensible dwarfP := by
  refine ⟨fun x hx => ?_, fun x hx y hy hxy => ?_⟩
  · have : x < 2 := hx
    interval_cases x <;> simp [radius, dwarfP]
  · rw [dwarfP_len hy hx hxy.symm]; norm_num

example : ∃ R C, generate_grand_resistance_matrix shippedTable dwarfP (NDMat.zeros 0 0) true 2 false false 1 true
      = some (R, C) ∧ ¬ PosDef R.get 22 := by
  obtain ⟨R, C, h1, -, h2, -⟩ := C87_gain (P := dwarfP) rfl rfl one_pos (by simp [radius, dwarfP])
    (by simp [radius, dwarfP]) (s := 2.015) (by rw [dwarfP_len (by norm_num) (by norm_num) (by norm_num), mul_one])
    (by norm_num) (by norm_num) (k := 2) (by norm_num) dwarfP_sensible one_pos true (NDMat.zeros 0 0)
  exact ⟨R, C, h1, h2⟩

end SD
