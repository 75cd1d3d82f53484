import Verif.Lemmas.Isotropy
import Verif.Lemmas.Grand

/-!
# Turning a whole configuration
-/

set_option autoImplicit false

namespace SD

open Spec

theorem turnVec_neg (Q : Fin 3 → Fin 3 → ℝ) (r : Fin 3 → ℝ) : turnVec Q (-r) = -turnVec Q r := by
  funext i
  simp [turnVec]

theorem turnVec_smul (Q : Fin 3 → Fin 3 → ℝ) (k : ℝ) (r : Fin 3 → ℝ) :
    turnVec Q (fun i => k * r i) = fun i => k * turnVec Q r i := by
  funext i
  simp only [turnVec, Finset.mul_sum]
  exact Finset.sum_congr rfl fun _ _ => by ring

theorem turnVec_sub (Q : Fin 3 → Fin 3 → ℝ) (x y : Fin 3 → ℝ) :
    turnVec Q (fun i => x i - y i) = fun i => turnVec Q x i - turnVec Q y i := by
  funext i
  simp only [turnVec, mul_sub, Finset.sum_sub_distrib]

theorem turnLoad_comm (Q : Fin 3 → Fin 3 → ℝ) (l1 l2 : Load) (G : Load → Load → ℝ) :
    turnLoad Q l1 (fun m1 => turnLoad Q l2 fun m2 => G m1 m2)
      = turnLoad Q l2 fun m2 => turnLoad Q l1 fun m1 => G m1 m2 := by
  cases l1 <;> cases l2 <;> simp only [turnLoad, Fin.sum_univ_three] <;> ring

section Turn

variable {Q : Fin 3 → Fin 3 → ℝ} (hQ : Orthogonal Q)
include hQ

theorem resp_turn {r : Fin 3 → ℝ} (h : r ≠ 0) (a b : ℝ) (l1 l2 : Load) :
    response a b l1 l2 (turnVec Q r)
      = turnLoad Q l1 fun m1 => turnLoad Q l2 fun m2 => response a b m1 m2 r := by
  have dd := det_sq hQ
  have half : ∀ {r : Fin 3 → ℝ}, r ≠ 0 → ∀ a b, ∀ l1 l2 : Load,
      (match l1, l2 with
        | .force _, _ => True
        | .torque _, .torque _ => True
        | .torque _, .stress _ _ => True
        | .stress _ _, .stress _ _ => True
        | _, _ => False) →
      response a b l1 l2 (turnVec Q r)
        = turnLoad Q l1 fun m1 => turnLoad Q l2 fun m2 => response a b m1 m2 r := by
    intro r h a b l1 l2 hl
    cases l1 <;> cases l2 <;> simp only at hl
    · rw [turn_FF hQ h]; simp only [turnLoad, Fin.sum_univ_three]; ring
    · rw [turn_FT hQ h]; simp only [turnLoad, Fin.sum_univ_three]; ring
    · rw [turn_FS hQ h]; simp only [turnLoad, Fin.sum_univ_three]; ring
    · rw [turn_TT hQ h]; simp only [turnLoad, Finset.mul_sum]
      refine Finset.sum_congr rfl fun _ _ => Finset.sum_congr rfl fun _ _ => ?_
      have e : ∀ x y z : ℝ, x * y * z = det3 Q * x * (det3 Q * y * z) := fun x y z => by
        linear_combination (-(x * y * z)) * dd
      exact e _ _ _
    · rw [turn_TS hQ h]; simp only [turnLoad, Finset.mul_sum]
      refine Finset.sum_congr rfl fun _ _ => Finset.sum_congr rfl fun _ _ =>
        Finset.sum_congr rfl fun _ _ => by ring
    · rw [turn_SS hQ h]; simp only [turnLoad, Finset.mul_sum]
      refine Finset.sum_congr rfl fun _ _ => Finset.sum_congr rfl fun _ _ =>
        Finset.sum_congr rfl fun _ _ => Finset.sum_congr rfl fun _ _ => by ring
  have h' : -r ≠ 0 := neg_ne_zero.mpr h
  have back : ∀ l1 l2 : Load, response b a l2 l1 (turnVec Q (-r))
        = (turnLoad Q l2 fun m2 => turnLoad Q l1 fun m1 => response b a m2 m1 (-r)) →
      response a b l1 l2 (turnVec Q r)
        = turnLoad Q l1 fun m1 => turnLoad Q l2 fun m2 => response a b m1 m2 r := by
    intro l1 l2 e
    rw [resp_recip (turn_ne hQ h), ← turnVec_neg, e, turnLoad_comm]
    simp only [← resp_recip h]
  cases l1 <;> cases l2
  all_goals first
    | exact half h a b _ _ trivial
    | exact back _ _ (half h' b a _ _ trivial)

end Turn

/-! ## Components -/

theorem proj_comm_turnLoad (Q : Fin 3 → Fin 3 → ℝ) (c : Comp) (l : Load) (G : Load → Load → ℝ) :
    proj c (fun m1 => turnLoad Q l fun m2 => G m1 m2) = turnLoad Q l fun m2 => proj c fun m1 => G m1 m2 := by
  cases c <;> cases l <;> simp only [proj, turnLoad, Fin.sum_univ_three] <;> ring

/-- The rotation of the five stresslet components. -/
noncomputable def rep5 (Q : Fin 3 → Fin 3 → ℝ) (p q : Fin 5) : ℝ :=
  ∑ i, ∑ j, basis5 p i j * turnMat Q (basis5 q) i j

theorem turnComp_s (Q : Fin 3 → Fin 3 → ℝ) (p : Fin 5) (F : Comp → ℝ) :
    turnComp Q (.s p) F = ∑ q, rep5 Q p q * F (.s q) := rfl

theorem proj_comm_turnComp (Q : Fin 3 → Fin 3 → ℝ) (c d : Comp) (G : Load → Comp → ℝ) :
    proj c (fun m1 => turnComp Q d fun m2 => G m1 m2) = turnComp Q d fun m2 => proj c fun m1 => G m1 m2 := by
  cases d with
  | s p =>
    simp only [turnComp_s]
    cases c <;> simp only [proj, Fin.sum_univ_three, Fin.sum_univ_five] <;> ring
  | f i => cases c <;> simp only [proj, turnComp, Fin.sum_univ_three] <;> ring
  | t i => cases c <;> simp only [proj, turnComp, Fin.sum_univ_three] <;> ring

/-- A symmetric traceless matrix in terms of the basis. -/
theorem basis5_expand {S : Fin 3 → Fin 3 → ℝ} (h : SymTraceless S) (i j : Fin 3) :
    S i j = ∑ q, five S q * basis5 q i j := by
  have h3 : Real.sqrt 3 ^ 2 = 3 := Real.sq_sqrt (by norm_num)
  have h2 : Real.sqrt 2 ^ 2 = 2 := Real.sq_sqrt (by norm_num)
  have h3p : 0 < Real.sqrt 3 := Real.sqrt_pos.mpr (by norm_num)
  have h2p : 0 < Real.sqrt 2 := Real.sqrt_pos.mpr (by norm_num)
  have t : S 2 2 = -S 0 0 - S 1 1 := by linarith [h.2]
  have s10 := h.1 1 0
  have s20 := h.1 2 0
  have s21 := h.1 2 1
  simp only [Fin.sum_univ_five]
  fin_cases i <;> fin_cases j <;> simp [five, basis5, s10, s20, s21, t] <;> field_simp <;> ring_nf

/-- The matrix `Qᵀ B Q`. -/
def backMat (Q S : Fin 3 → Fin 3 → ℝ) : Fin 3 → Fin 3 → ℝ := fun a b => ∑ i, ∑ j, S i j * (Q i a * Q j b)

theorem back_contract (Q S G : Fin 3 → Fin 3 → ℝ) :
    ∑ a, ∑ b, backMat Q S a b * G a b = ∑ i, ∑ j, S i j * turnMat Q G i j := by
  simp only [backMat, turnMat, Fin.sum_univ_three]
  ring

theorem back_symTraceless {Q : Fin 3 → Fin 3 → ℝ} (hQ : Orthogonal Q) {S : Fin 3 → Fin 3 → ℝ}
    (h : SymTraceless S) : SymTraceless (backMat Q S) := by
  constructor
  · intro a b
    unfold backMat
    rw [Finset.sum_comm]
    refine Finset.sum_congr rfl fun i _ => Finset.sum_congr rfl fun j _ => ?_
    rw [h.1 j i]; ring
  · have e : backMat Q S 0 0 + backMat Q S 1 1 + backMat Q S 2 2
        = ∑ i, ∑ j, S i j * ∑ k, Q i k * Q j k := by
      simp only [backMat, Fin.sum_univ_three]; ring
    rw [e]
    simp only [hQ _ _]
    have := h.2
    simpa [dlt, Fin.sum_univ_three] using this

theorem rep5_eq {Q : Fin 3 → Fin 3 → ℝ} (hQ : Orthogonal Q) (p q : Fin 5) :
    rep5 Q p q = five (backMat Q (basis5 p)) q := by
  rw [← basis5_contract _ (back_symTraceless hQ (basis5_symm p)), rep5, ← back_contract]
  exact Finset.sum_congr rfl fun _ _ => Finset.sum_congr rfl fun _ _ => mul_comm _ _

theorem proj_turn {Q : Fin 3 → Fin 3 → ℝ} (hQ : Orthogonal Q) (c : Comp) (G : Load → ℝ) :
    proj c (fun l => turnLoad Q l G) = turnComp Q c fun d => proj d G := by
  cases c with
  | f i => rfl
  | t i => rfl
  | s p =>
    rw [turnComp_s]
    show ∑ i, ∑ j, basis5 p i j * turnMat Q (fun a b => G (.stress a b)) i j = _
    rw [← back_contract]
    simp only [proj, rep5_eq hQ]
    have e := basis5_expand (back_symTraceless hQ (basis5_symm p))
    simp only [e (_ : Fin 3) (_ : Fin 3)]
    simp only [Fin.sum_univ_three, Fin.sum_univ_five]
    ring

theorem pairMob_proj {r : Fin 3 → ℝ} (h : r ≠ 0) (a b : ℝ) (c1 c2 : Comp) :
    pairMob a b c1 c2 r = proj c1 fun l1 => proj c2 fun l2 => response a b l1 l2 r := by
  have e : ∀ l1, respTo a b l1 c2 r = proj c2 fun l2 => response a b l1 l2 r := by
    intro l1; cases c2 <;> rfl
  cases c1 with
  | f i => exact e _
  | t i => exact e _
  | s p =>
    show five (fun i j => respTo a b (.stress i j) c2 r) p = _
    rw [← basis5_contract]
    · simp only [proj, e]
    · simp only [e]
      have hs : ∀ l2, SymTraceless fun i j => response a b (.stress i j) l2 r := by
        intro l2
        have := resp_stress_symTraceless (neg_ne_zero.mpr h) b a l2
        simpa only [← resp_recip h] using this
      constructor
      · intro i j
        have : ∀ l2, response a b (.stress i j) l2 r = response a b (.stress j i) l2 r := fun l2 => (hs l2).1 i j
        simp only [this]
      · have : ∀ l2, response a b (.stress 2 2) l2 r
            = -response a b (.stress 0 0) l2 r - response a b (.stress 1 1) l2 r := fun l2 => by
          linarith [(hs l2).2]
        simp only [this]
        cases c2 <;> simp only [proj, Fin.sum_univ_three] <;> ring

theorem pairMob_turn {Q : Fin 3 → Fin 3 → ℝ} (hQ : Orthogonal Q) {r : Fin 3 → ℝ} (h : r ≠ 0) (a b : ℝ)
    (c1 c2 : Comp) :
    pairMob a b c1 c2 (turnVec Q r)
      = turnComp Q c1 fun d1 => turnComp Q c2 fun d2 => pairMob a b d1 d2 r := by
  rw [pairMob_proj (turn_ne hQ h)]
  simp only [resp_turn hQ h, pairMob_proj h]
  simp only [proj_comm_turnLoad, proj_turn hQ, proj_comm_turnComp]

/-! ## Single particles -/

theorem turn_back {Q : Fin 3 → Fin 3 → ℝ} (hQ : Orthogonal Q) (S : Fin 3 → Fin 3 → ℝ) :
    turnMat Q (backMat Q S) = S := by
  funext i j
  have e : turnMat Q (backMat Q S) i j = ∑ k, ∑ l, S k l * ((∑ a, Q i a * Q k a) * ∑ b, Q j b * Q l b) := by
    simp only [turnMat, backMat, Fin.sum_univ_three]; ring
  rw [e]
  simp only [hQ _ _]
  simp [dlt]

theorem rep5_orth {Q : Fin 3 → Fin 3 → ℝ} (hQ : Orthogonal Q) (p p' : Fin 5) :
    ∑ q, rep5 Q p q * rep5 Q p' q = if p = p' then 1 else 0 := by
  have h' := back_symTraceless hQ (basis5_symm p')
  have e1 : ∑ q, rep5 Q p q * rep5 Q p' q
      = ∑ a, ∑ b, backMat Q (basis5 p) a b * backMat Q (basis5 p') a b := by
    simp only [fun a b => basis5_expand h' a b]
    simp only [rep5_eq hQ]
    simp only [← basis5_contract _ (back_symTraceless hQ (basis5_symm p))]
    simp only [Fin.sum_univ_three, Fin.sum_univ_five]
    ring
  rw [e1, back_contract, turn_back hQ, basis5_contract _ (basis5_symm p'), five_basis5]
  simp [eq_comm]

theorem turnComp_self {Q : Fin 3 → Fin 3 → ℝ} (hQ : Orthogonal Q) (mu a : ℝ) (c1 c2 : Comp) :
    selfMob mu a c1 c2 = turnComp Q c1 fun d1 => turnComp Q c2 fun d2 => selfMob mu a d1 d2 := by
  have dd := det_sq hQ
  cases c1 with
  | f i =>
    cases c2 with
    | f j =>
      have := hQ i j
      simp only [turnComp, selfMob]
      simp only [mul_ite, mul_zero, Finset.sum_ite_eq, Finset.mem_univ, if_true, ← mul_assoc]
      rw [← Finset.sum_mul, this, dlt]
      split_ifs <;> simp
    | t j => simp [turnComp, selfMob]
    | s q => simp [turnComp, selfMob]
  | t i =>
    cases c2 with
    | f j => simp [turnComp, selfMob]
    | t j =>
      have := hQ i j
      simp only [turnComp, selfMob]
      simp only [mul_ite, mul_zero, Finset.sum_ite_eq, Finset.mem_univ, if_true, ← mul_assoc]
      have e : ∑ x, det3 Q * Q i x * det3 Q * Q j x = ∑ x, Q i x * Q j x :=
        Finset.sum_congr rfl fun x _ => by linear_combination (Q i x * Q j x) * dd
      rw [← Finset.sum_mul, e, this, dlt]
      split_ifs <;> simp
    | s q => simp [turnComp, selfMob]
  | s p =>
    cases c2 with
    | f j => simp [turnComp, selfMob]
    | t j => simp [turnComp, selfMob]
    | s q =>
      have := rep5_orth hQ p q
      simp only [turnComp_s, selfMob]
      simp only [mul_ite, mul_zero, Finset.sum_ite_eq, Finset.mem_univ, if_true, ← mul_assoc]
      rw [← Finset.sum_mul, this]
      split_ifs <;> simp

theorem sep_turn {Q : Fin 3 → Fin 3 → ℝ} (hQ : Orthogonal Q) (r : Fin 3 → ℝ) (a b : ℝ) :
    sep (turnVec Q r) a b = turnVec Q (sep r a b) := by
  unfold sep
  rw [len_turn hQ]
  split_ifs
  · rw [turnVec_smul]
  · rfl

/-! ## Systems -/

theorem turnComp_zero (Q : Fin 3 → Fin 3 → ℝ) (c : Comp) : (turnComp Q c fun _ => 0) = 0 := by
  cases c <;> simp [turnComp]

theorem turnComp_mul (Q : Fin 3 → Fin 3 → ℝ) (c : Comp) (k : ℝ) (F : Comp → ℝ) :
    (turnComp Q c fun d => k * F d) = k * turnComp Q c F := by
  cases c <;> simp only [turnComp, Finset.mul_sum] <;>
    exact Finset.sum_congr rfl fun _ _ => by ring

theorem systemMob_turn {Q : Fin 3 → Fin 3 → ℝ} (hQ : Orthogonal Q) (Ns : ℕ) (bb : Bool)
    (ctr : ℕ → Fin 3 → ℝ) (rad : ℕ → ℝ) (mu : ℝ) (x y : ℕ) (c1 c2 : Comp)
    (hs : x ≠ y → sep (fun i => ctr x i - ctr y i) (rad x) (rad y) ≠ 0) :
    systemMob Ns bb (fun u => turnVec Q (ctr u)) rad mu x c1 y c2
      = turnComp Q c1 fun d1 => turnComp Q c2 fun d2 => systemMob Ns bb ctr rad mu x d1 y d2 := by
  unfold systemMob
  by_cases h1 : x = y
  · simp only [if_pos h1]; exact turnComp_self hQ _ _ _ _
  simp only [if_neg h1]
  by_cases h2 : bb = false ∧ Ns ≤ x ∧ Ns ≤ y
  · simp only [if_pos h2, turnComp_zero]
  simp only [if_neg h2, turnComp_mul]
  rw [← pairMob_turn hQ (hs h1), ← sep_turn hQ, turnVec_sub]

theorem centre_turned (P : PosData) (Q : Fin 3 → Fin 3 → ℝ) (u : ℕ) :
    centre (turned P Q) u = turnVec Q (centre P u) := by
  funext i
  show (if u < P.Ns then turnVec Q (P.spherePos u) i
    else if u < P.Ns + P.Nd then turnVec Q (P.dumbPos (u - P.Ns)) i - turnVec Q (P.dumbDx (u - P.Ns)) i / 2
    else turnVec Q (P.dumbPos (u - (P.Ns + P.Nd))) i + turnVec Q (P.dumbDx (u - (P.Ns + P.Nd))) i / 2)
    = turnVec Q (centre P u) i
  simp only [turnVec, centre]
  by_cases h1 : u < P.Ns
  · simp only [if_pos h1]
  · by_cases h2 : u < P.Ns + P.Nd
    · simp only [if_neg h1, if_pos h2, Fin.sum_univ_three]; ring
    · simp only [if_neg h1, if_neg h2, Fin.sum_univ_three]; ring

theorem turned_sensible {P : PosData} (hP : Sensible P) {Q : Fin 3 → Fin 3 → ℝ} (hQ : Orthogonal Q) :
    Sensible (turned P Q) where
  radius_pos := hP.radius_pos
  apart := by
    intro x hx y hy e
    rw [centre_turned, centre_turned, ← turnVec_sub, len_turn hQ]
    exact hP.apart x hx y hy e

end SD
