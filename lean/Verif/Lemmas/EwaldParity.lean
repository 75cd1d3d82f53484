import Verif.Lemmas.EwaldWaves
import Verif.Lemmas.EwaldSelf

/-!
# Reversing the displacement; boxes in simple shear
-/

set_option autoImplicit false

namespace SD.Ewald

open Spec

/-- Whether the response changes sign with the displacement. -/
def turns : Load → Load → ℝ
  | .force _, .force _ => 1
  | .force _, _ => -1
  | _, .force _ => -1
  | _, _ => 1

theorem len_neg (y : Vec3) : len (-y) = len y := by simp [len]

theorem respVal_turn {G0 G0' : Fin 3 → Fin 3 → ℝ} {G1 G1' : Fin 3 → Fin 3 → Fin 3 → ℝ}
    {G2 G2' : Fin 3 → Fin 3 → Fin 3 → Fin 3 → ℝ} (h0 : ∀ i j, G0' i j = G0 i j)
    (h1 : ∀ i j l, G1' i j l = -G1 i j l) (h2 : ∀ i j m l, G2' i j m l = G2 i j m l) (l1 l2 : Load) :
    respVal G0' G1' G2' l1 l2 = turns l1 l2 * respVal G0 G1 G2 l1 l2 := by
  cases l1 <;> cases l2 <;> simp only [respVal, turns, eps_two, h0, h1, h2] <;> ring

theorem chainResp_neg (g : ℕ → ℝ → ℝ) (a b : ℝ) (l1 l2 : Load) (y : Vec3) :
    chainResp g a b l1 l2 (-y) = turns l1 l2 * chainResp g a b l1 l2 y := by
  have t0 : ∀ p q i j, T0 p q i j (-y) = T0 p q i j y := by
    intro p q i j; simp only [T0, len_neg, Pi.neg_apply]; ring
  have t1 : ∀ p q i j l, T1 p q i j l (-y) = -T1 p q i j l y := by
    intro p q i j l; simp only [T1, len_neg, Pi.neg_apply]; ring
  have t2 : ∀ p q i j m l, T2 p q i j m l (-y) = T2 p q i j m l y := by
    intro p q i j m l; simp only [T2, len_neg, Pi.neg_apply]; ring
  unfold chainResp
  rw [respVal_turn (fun i j => t0 _ _ i j) (fun i j l => t1 _ _ i j l) (fun i j m l => t2 _ _ i j m l),
    respVal_turn (fun i j => t0 _ _ i j) (fun i j l => t1 _ _ i j l) (fun i j m l => t2 _ _ i j m l)]
  ring

theorem nearResp_neg (lamb a b : ℝ) (l1 l2 : Load) (y : Vec3) :
    nearResp lamb a b l1 l2 (-y) = turns l1 l2 * nearResp lamb a b l1 l2 y := chainResp_neg _ a b l1 l2 y

theorem waveResp_neg (lamb a b : ℝ) (l1 l2 : Load) (r k : Vec3) :
    waveResp lamb a b l1 l2 (-r) k = turns l1 l2 * waveResp lamb a b l1 l2 r k := by
  have hi : inner3 k (-r) = -inner3 k r := by simp [inner3]
  have hc : Real.cos (inner3 k (-r)) = Real.cos (inner3 k r) := by rw [hi, Real.cos_neg]
  have hsn : Real.sin (inner3 k (-r)) = -Real.sin (inner3 k r) := by rw [hi, Real.sin_neg]
  have e1 := respVal_turn (G0 := fun i j => Real.cos (inner3 k r) * waveJ lamb i j k)
      (G1 := fun i j l => -(k l * Real.sin (inner3 k r) * waveJ lamb i j k))
      (G2 := fun i j m l => -(k m * k l * (Real.cos (inner3 k r) * waveJ lamb i j k)))
      (G1' := fun i j l => -(k l * -Real.sin (inner3 k r) * waveJ lamb i j k))
      (fun i j => rfl) (fun i j l => by ring) (fun i j m l => rfl) l1 l2
  have e2 := respVal_turn (G0 := fun i j => -(len k ^ 2 * (Real.cos (inner3 k r) * waveJ lamb i j k)))
      (G1 := fun i j l => len k ^ 2 * (k l * Real.sin (inner3 k r) * waveJ lamb i j k))
      (G2 := fun i j m l => len k ^ 2 * (k m * k l * (Real.cos (inner3 k r) * waveJ lamb i j k)))
      (G1' := fun i j l => len k ^ 2 * (k l * -Real.sin (inner3 k r) * waveJ lamb i j k))
      (fun i j => rfl) (fun i j l => by ring) (fun i j m l => rfl) l1 l2
  unfold waveResp
  rw [hc, hsn, e1, e2]
  ring

theorem sum_flip {X : List Vec3} (h : (X.map fun x => -x).Perm X) (f : Vec3 → ℝ) :
    (X.map fun x => f (-x)).sum = (X.map f).sum := by
  have := (h.map f).sum_eq
  rw [List.map_map] at this
  exact this

theorem Xdash_symm {W : Lattice} (h : (W.X.map fun x => -x).Perm W.X) :
    (W.Xdash.map fun x => -x).Perm W.Xdash := by
  have := h.filter fun x => decide (norm3 x > 0)
  rw [List.filter_map] at this
  refine (List.Perm.of_eq ?_).trans this
  unfold Lattice.Xdash
  congr 1
  refine List.filter_congr fun x _ => ?_
  simp only [Function.comp, norm3_neg]

/-- At its own position a particle's images produce no velocity from torques or stresses. -/
theorem rest_odd {W : Lattice} (h : (W.X.map fun x => -x).Perm W.X) (V a b : ℝ) {l1 l2 : Load}
    (ht : turns l1 l2 = -1) (hz : chainResp (smoothChain W.lamb) a b l1 l2 0 = 0) :
    rest W.lamb V W.Xdash W.K a b l1 l2 = 0 := by
  have h1 : (W.Xdash.map fun x => nearResp W.lamb a b l1 l2 x).sum = 0 := by
    have := sum_flip (Xdash_symm h) (nearResp W.lamb a b l1 l2)
    simp only [nearResp_neg, ht] at this
    rw [List.sum_map_mul_left] at this
    have e : (W.Xdash.map fun x => nearResp W.lamb a b l1 l2 x) = W.Xdash.map (nearResp W.lamb a b l1 l2) := rfl
    rw [e] at this ⊢
    linarith
  have h2 : ∀ k, waveResp W.lamb a b l1 l2 0 k = 0 := by
    intro k
    have := waveResp_neg W.lamb a b l1 l2 0 k
    rw [ht, neg_zero] at this
    linarith
  simp only [rest, h1, h2, hz]
  simp

/-! ## Boxes in simple shear -/

theorem shear_gridVec {bl tr Ot : Vec3} {Et : Mat3} {a b : Fin 3} {g : ℝ} (hs : IsShear Ot Et a b g)
    (n : Fin 3 → ℤ) (i : Fin 3) : gridVec (boxBasis bl tr Ot Et) n i
      = n i * (tr i - bl i) + if i = a then n b * npMod (g * (tr b - bl b)) (tr a - bl a) else 0 := by
  simp only [gridVec, vecMat3, boxBasis, shear_basis_shear hs, mul_add, Finset.sum_add_distrib]
  congr 1
  · simp
  · by_cases h : i = a
    · simp [h]
    · simp [h]

/-- A lattice vector is no shorter than the shortest side. -/
theorem shear_norm {bl tr Ot : Vec3} {Et : Mat3} {a b : Fin 3} {g d : ℝ} (hab : a ≠ b)
    (hs : IsShear Ot Et a b g) (hd : 0 < d) (h : ∀ i, d < tr i - bl i) {n : Fin 3 → ℤ} (hn : n ≠ 0) :
    d < norm3 (gridVec (boxBasis bl tr Ot Et) n) := by
  have key : ∃ i, d < |gridVec (boxBasis bl tr Ot Et) n i| := by
    have big : ∀ i, n i ≠ 0 → d < |(n i : ℝ) * (tr i - bl i)| := by
      intro i hi
      have h1 : (1 : ℝ) ≤ |(n i : ℝ)| := by
        rw [← Int.cast_abs]
        exact_mod_cast Int.one_le_abs hi
      rw [abs_mul, abs_of_pos (lt_trans hd (h i))]
      have := h i
      nlinarith
    by_cases hb : n b = 0
    · have : ∃ i, n i ≠ 0 := by
        by_contra hc
        push Not at hc
        exact hn (funext hc)
      obtain ⟨i, hi⟩ := this
      refine ⟨i, ?_⟩
      rw [shear_gridVec hs, hb]
      simpa using big i hi
    · refine ⟨b, ?_⟩
      rw [shear_gridVec hs, if_neg (Ne.symm hab), add_zero]
      exact big b hb
  obtain ⟨i, hi⟩ := key
  refine lt_of_lt_of_le hi ?_
  generalize gridVec (boxBasis bl tr Ot Et) n = y
  unfold norm3
  rw [← Real.sqrt_sq_eq_abs]
  refine Real.sqrt_le_sqrt ?_
  fin_cases i
  · change y 0 ^ 2 ≤ _; nlinarith [sq_nonneg (y 1), sq_nonneg (y 2)]
  · change y 1 ^ 2 ≤ _; nlinarith [sq_nonneg (y 0), sq_nonneg (y 2)]
  · change y 2 ^ 2 ≤ _; nlinarith [sq_nonneg (y 0), sq_nonneg (y 1)]

theorem shear_independent {bl tr Ot : Vec3} {Et : Mat3} {a b : Fin 3} {g : ℝ} (hab : a ≠ b)
    (hs : IsShear Ot Et a b g) (h : ∀ i, bl i < tr i) : Independent (boxBasis bl tr Ot Et) := by
  intro n hn
  by_contra hc
  have h0 := h 0; have h1 := h 1; have h2 := h 2
  set d := min (min (tr 0 - bl 0) (tr 1 - bl 1)) (tr 2 - bl 2) / 2 with hd
  have hm : 0 < min (min (tr 0 - bl 0) (tr 1 - bl 1)) (tr 2 - bl 2) :=
    lt_min (lt_min (by linarith) (by linarith)) (by linarith)
  have hdp : 0 < d := by rw [hd]; linarith
  have hlt : ∀ i, d < tr i - bl i := by
    have e0 := min_le_left (min (tr 0 - bl 0) (tr 1 - bl 1)) (tr 2 - bl 2)
    have e1 := min_le_left (tr 0 - bl 0) (tr 1 - bl 1)
    have e2 := min_le_right (tr 0 - bl 0) (tr 1 - bl 1)
    have e3 := min_le_right (min (tr 0 - bl 0) (tr 1 - bl 1)) (tr 2 - bl 2)
    intro i
    fin_cases i
    · change d < tr 0 - bl 0; linarith
    · change d < tr 1 - bl 1; linarith
    · change d < tr 2 - bl 2; linarith
  have := shear_norm hab hs hdp hlt hc
  rw [hn] at this
  have e : norm3 (0 : Vec3) = 0 := by simp [norm3]
  rw [e] at this
  linarith

end SD.Ewald
