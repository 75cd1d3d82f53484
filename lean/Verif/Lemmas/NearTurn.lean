import Verif.Lemmas.Units

/-!
# The near-field interactions commute with rotations
-/

set_option autoImplicit false

namespace SD.Cov

open Spec

variable {Q : Fin 3 → Fin 3 → ℝ}

section
variable (hQ : Orthogonal Q)
include hQ

theorem dotp_turn (x y : Fin 3 → ℝ) : dotp (turnVec Q x) (turnVec Q y) = dotp x y := by
  have := dot_turn hQ x y
  simpa [Fin.sum_univ_three, dotp] using this

theorem cross_turn (x y : Fin 3 → ℝ) (i : Fin 3) :
    cross (turnVec Q x) (turnVec Q y) i = det3 Q * turnVec Q (cross x y) i := by
  have h := vol_turn Q x y (Q i)
  rw [turn_row hQ] at h
  have e : ∀ x y z : Fin 3 → ℝ, vol x y z = dotp (cross x y) z := by
    intro x y z
    simp [vol, cross, dotp, Fin.sum_univ_three, eps]
    ring
  rw [e, e] at h
  have e1 : dotp (cross (turnVec Q x) (turnVec Q y)) (dlt i) = cross (turnVec Q x) (turnVec Q y) i := by
    fin_cases i <;> simp [dotp, dlt]
  have e2 : dotp (cross x y) (Q i) = turnVec Q (cross x y) i := by
    simp only [dotp, turnVec, Fin.sum_univ_three]; ring
  rw [← e1, h, e2]

theorem app_turn (E : Fin 3 → Fin 3 → ℝ) (d : Fin 3 → ℝ) :
    app (turnMat Q E) (turnVec Q d) = turnVec Q (app E d) := by
  funext i
  have e : turnMat Q E i = turnVec Q fun b => ∑ a, Q i a * E a b := by
    funext j
    simp only [turnMat, turnVec, Fin.sum_univ_three]; ring
  unfold app
  rw [e, dotp_turn hQ]
  simp only [dotp, turnVec, Fin.sum_univ_three]; ring

theorem nearForce_turn (z : Scalars) (a : ℝ) (d U : Fin 3 → ℝ) :
    nearForce z a (turnVec Q d) (turnVec Q U) = turnVec Q (nearForce z a d U) := by
  funext i
  simp only [nearForce, dotp_turn hQ]
  simp only [turnVec, nearForce, Fin.sum_univ_three]
  ring

theorem nearTorque_turn (z : Scalars) (a : ℝ) (d U O : Fin 3 → ℝ) :
    nearTorque z a (turnVec Q d) (turnVec Q U) (fun i => det3 Q * turnVec Q O i)
      = fun i => det3 Q * turnVec Q (nearTorque z a d U O) i := by
  funext i
  have e : dotp (turnVec Q d) (fun i => det3 Q * turnVec Q O i) = det3 Q * dotp d O := by
    rw [← dotp_turn hQ d O]; simp only [dotp]; ring
  simp only [nearTorque, cross_turn hQ, e]
  simp only [turnVec, nearTorque, Fin.sum_univ_three]
  ring

theorem nearStress_turn (z : Scalars) (a : ℝ) (d U O : Fin 3 → ℝ) (E : Fin 3 → Fin 3 → ℝ) :
    nearStress z a (turnVec Q d) (turnVec Q U) (fun i => det3 Q * turnVec Q O i) (turnMat Q E)
      = turnMat Q (nearStress z a d U O E) := by
  funext i j
  have e : ∀ i, cross (fun i => det3 Q * turnVec Q O i) (turnVec Q d) i = turnVec Q (cross O d) i := by
    intro i
    have h1 := cross_turn hQ O d i
    have h2 : cross (fun i => det3 Q * turnVec Q O i) (turnVec Q d) i
        = det3 Q * cross (turnVec Q O) (turnVec Q d) i := by
      fin_cases i <;> simp [cross] <;> ring
    rw [h2, h1, ← mul_assoc, det_sq hQ, one_mul]
  simp only [nearStress, dotp_turn hQ, e, app_turn hQ, ← hQ i j]
  have t2 : ∀ x y : Fin 3 → ℝ, turnVec Q x i * turnVec Q y j = turnMat Q (fun a b => x a * y b) i j := by
    intro x y
    simp only [turnVec, turnMat, Fin.sum_univ_three]; ring
  have t3 : ∑ k, Q i k * Q j k = turnMat Q dlt i j := by
    simp [turnMat, dlt, Fin.sum_univ_three]
  have add : ∀ S T : Fin 3 → Fin 3 → ℝ, turnMat Q S i j + turnMat Q T i j = turnMat Q (fun a b => S a b + T a b) i j := by
    intro S T
    simp only [turnMat, Fin.sum_univ_three]; ring
  have sub : ∀ S T : Fin 3 → Fin 3 → ℝ, turnMat Q S i j - turnMat Q T i j = turnMat Q (fun a b => S a b - T a b) i j := by
    intro S T
    simp only [turnMat, Fin.sum_univ_three]; ring
  have mulr : ∀ (S : Fin 3 → Fin 3 → ℝ) (m : ℝ), turnMat Q S i j * m = turnMat Q (fun a b => S a b * m) i j := by
    intro S m
    simp only [turnMat, Fin.sum_univ_three]; ring
  have mull : ∀ (S : Fin 3 → Fin 3 → ℝ) (m : ℝ), m * turnMat Q S i j = turnMat Q (fun a b => m * S a b) i j := by
    intro S m
    simp only [turnMat, Fin.sum_univ_three]; ring
  have divr : ∀ (S : Fin 3 → Fin 3 → ℝ) (m : ℝ), turnMat Q S i j / m = turnMat Q (fun a b => S a b / m) i j := by
    intro S m
    simp only [turnMat, Fin.sum_univ_three]; ring
  simp only [t3, t2, divr, mulr, mull, add, sub]
  rfl

/-! ## Components -/

omit hQ in
theorem five_turn (hQ : Orthogonal Q) {S : Fin 3 → Fin 3 → ℝ} (hS : SymTraceless S) (p : Fin 5) :
    five (turnMat Q S) p = ∑ q, rep5 Q p q * five S q := by
  have hT : SymTraceless (turnMat Q S) := by
    constructor
    · intro i j
      simp only [turnMat]
      rw [Finset.sum_comm]
      refine Finset.sum_congr rfl fun a _ => Finset.sum_congr rfl fun b _ => ?_
      rw [hS.1 b a]; ring
    · have e : turnMat Q S 0 0 + turnMat Q S 1 1 + turnMat Q S 2 2 = ∑ a, ∑ b, S a b * ∑ k, Q k a * Q k b := by
        simp only [turnMat, Fin.sum_univ_three]; ring
      rw [e]
      simp only [orth_col hQ]
      have := hS.2
      simpa [dlt, Fin.sum_univ_three] using this
  rw [← basis5_contract _ hT]
  have := proj_turn hQ (.s p) fun l => match l with | .stress a b => S a b | _ => 0
  rw [turnComp_s] at this
  refine Eq.trans this ?_
  refine Finset.sum_congr rfl fun q _ => congrArg (_ * ·) ?_
  exact basis5_contract S hS q

omit hQ in
theorem nearStress_symTraceless (z : Scalars) (a : ℝ) {d : Fin 3 → ℝ} (hd : dotp d d = 1) (U O : Fin 3 → ℝ)
    {E : Fin 3 → Fin 3 → ℝ} (hE : SymTraceless E) : SymTraceless (nearStress z a d U O E) := by
  constructor
  · intro i j
    simp only [nearStress, hE.1 j i, show dlt j i = dlt i j by simp [dlt, eq_comm]]; ring
  · have h1 : dotp d (cross O d) = 0 := by simp [dotp, cross]; ring
    have h2 := hE.2
    simp only [nearStress, dlt, if_true]
    generalize hv : app E d = v
    generalize hw : cross O d = w at h1
    simp only [dotp] at h1 hd ⊢
    linear_combination (4 * Real.pi * a ^ 2 * (z.XG * (d 0 * U 0 + d 1 * U 1 + d 2 * U 2)
        - 2 * z.YG * (d 0 * U 0 + d 1 * U 1 + d 2 * U 2))
      + 20 / 3 * Real.pi * a ^ 3 * (3 / 2 * z.XM - 2 * z.YM + 1 / 2 * z.ZM) * (d 0 * v 0 + d 1 * v 1 + d 2 * v 2)) * hd
      + 8 * Real.pi * a ^ 3 * z.YH * 2 * h1 + 20 / 3 * Real.pi * a ^ 3 * z.ZM * h2

theorem nearDirect_turn (z : Scalars) (a : ℝ) {d : Fin 3 → ℝ} (hd : dotp d d = 1) (c1 c2 : Comp) :
    nearDirect z a (turnVec Q d) c1 c2
      = turnComp Q c1 fun d1 => turnComp Q c2 fun d2 => nearDirect z a d d1 d2 := by
  have dd := det_sq hQ
  have z0 : turnVec Q 0 = 0 := by funext i; simp [turnVec]
  have z0' : (fun i => det3 Q * turnVec Q 0 i) = 0 := by funext i; simp [turnVec]
  have z1 : turnMat Q 0 = 0 := by funext i j; simp [turnMat]
  have u0 : ∀ j, unit j = turnVec Q (Q j) := by
    intro j
    rw [turn_row hQ]
    funext i
    simp [unit, dlt, eq_comm]
  have u1 : ∀ j, unit j = fun i => det3 Q * turnVec Q (fun b => det3 Q * Q j b) i := by
    intro j
    rw [turnVec_smul, u0]
    funext i
    rw [← mul_assoc, dd, one_mul]
  have u2 : ∀ q, basis5 q = turnMat Q (backMat Q (basis5 q)) := fun q => (turn_back hQ _).symm
  have zs : SymTraceless (0 : Fin 3 → Fin 3 → ℝ) := ⟨fun _ _ => rfl, by simp⟩
  have tv : ∀ F i, turnVec Q F i = ∑ b, Q i b * F b := fun _ _ => rfl
  have a0 : app 0 d = 0 := by funext i; simp [app, dotp]
  have d0 : dotp d 0 = 0 := by simp [dotp]
  cases c1 with
  | f i =>
    cases c2 with
    | f j =>
      simp only [nearDirect, turnComp]
      rw [u0 j, nearForce_turn hQ]
      refine Finset.sum_congr rfl fun m _ => congrArg (Q i m * ·) ?_
      simp only [nearForce, dotp, unit, dlt, Fin.sum_univ_three]
      fin_cases m <;> simp <;> ring
    | t j => simp [nearDirect, turnComp]
    | s q => simp [nearDirect, turnComp]
  | t i =>
    cases c2 with
    | f j =>
      simp only [nearDirect, turnComp]
      have e := nearTorque_turn hQ z a d (Q j) 0
      rw [z0', ← u0] at e
      rw [e]
      dsimp only
      rw [tv, Finset.mul_sum]
      refine Finset.sum_congr rfl fun m _ => ?_
      rw [← mul_assoc]
      refine congrArg (det3 Q * Q i m * ·) ?_
      simp only [nearTorque, z0, dotp, cross, unit, dlt, Fin.sum_univ_three, Pi.zero_apply]
      fin_cases m <;> simp <;> ring
    | t j =>
      simp only [nearDirect, turnComp]
      have e := nearTorque_turn hQ z a d 0 fun b => det3 Q * Q j b
      rw [z0] at e
      rw [u1 j, e]
      dsimp only
      rw [tv, Finset.mul_sum]
      refine Finset.sum_congr rfl fun m _ => ?_
      rw [← mul_assoc]
      refine congrArg (det3 Q * Q i m * ·) ?_
      simp only [nearTorque, cross_zero, dotp, unit, dlt, Fin.sum_univ_three]
      fin_cases m <;> simp <;> ring
    | s q => simp [nearDirect, turnComp]
  | s p =>
    rw [turnComp_s]
    cases c2 with
    | f j =>
      simp only [nearDirect, turnComp]
      have e := nearStress_turn hQ z a d (Q j) 0 0
      rw [z0', z1, ← u0] at e
      rw [e, five_turn hQ (nearStress_symTraceless z a hd _ _ zs)]
      refine Finset.sum_congr rfl fun m _ => congrArg (_ * ·) ?_
      have l : nearStress z a d (Q j) 0 0 = fun i k => ∑ b, Q j b * nearStress z a d (unit b) 0 0 i k := by
        funext i k
        have e0 : dotp d (Q j) = ∑ b, Q j b * dotp d (unit b) := by
          simp [dotp, unit, dlt, Fin.sum_univ_three]; ring
        have e1 : ∀ i, Q j i = ∑ b, Q j b * unit b i := by
          intro i; simp [unit, dlt]
        simp only [nearStress, a0, d0, cross_zero, Pi.zero_apply, e0, e1 i, e1 k]
        simp only [Fin.sum_univ_three]
        ring
      rw [l, five_sum]
      exact Finset.sum_congr rfl fun b _ => five_mul_left one_pos _ _ _
    | t j =>
      simp only [nearDirect, turnComp]
      have e := nearStress_turn hQ z a d 0 (fun b => det3 Q * Q j b) 0
      rw [z0, z1, ← u1] at e
      rw [e, five_turn hQ (nearStress_symTraceless z a hd _ _ zs)]
      refine Finset.sum_congr rfl fun m _ => congrArg (_ * ·) ?_
      have l : nearStress z a d 0 (fun b => det3 Q * Q j b) 0
          = fun i k => ∑ b, det3 Q * Q j b * nearStress z a d 0 (unit b) 0 i k := by
        funext i k
        have e1 : ∀ i, cross (fun b => det3 Q * Q j b) d i = ∑ b, det3 Q * Q j b * cross (unit b) d i := by
          intro i
          fin_cases i <;> simp [cross, unit, dlt, Fin.sum_univ_three] <;> ring
        simp only [nearStress, a0, d0, Pi.zero_apply, e1 i, e1 k]
        simp only [Fin.sum_univ_three]
        ring
      rw [l, five_sum]
      exact Finset.sum_congr rfl fun b _ => five_mul_left one_pos _ _ _
    | s q =>
      simp only [nearDirect, turnComp_s]
      have hb := back_symTraceless hQ (basis5_symm q)
      have e := nearStress_turn hQ z a d 0 0 (backMat Q (basis5 q))
      rw [z0', z0, ← u2] at e
      rw [e, five_turn hQ (nearStress_symTraceless z a hd _ _ hb)]
      refine Finset.sum_congr rfl fun m _ => congrArg (_ * ·) ?_
      have l : nearStress z a d 0 0 (backMat Q (basis5 q))
          = fun i k => ∑ b, rep5 Q q b * nearStress z a d 0 0 (basis5 b) i k := by
        funext i k
        have e0 : ∀ i k, backMat Q (basis5 q) i k = ∑ b, rep5 Q q b * basis5 b i k := by
          intro i k
          rw [basis5_expand hb]
          simp only [rep5_eq hQ]
        have e1 : ∀ i, app (backMat Q (basis5 q)) d i = ∑ b, rep5 Q q b * app (basis5 b) d i := by
          intro i
          simp only [app, dotp, e0, Fin.sum_univ_five]
          ring
        simp only [nearStress, cross_zero, Pi.zero_apply, e0 i k, d0, dotp, e1]
        simp only [Fin.sum_univ_five]
        ring
      rw [l, five_sum]
      exact Finset.sum_congr rfl fun b _ => five_mul_left one_pos _ _ _

theorem turnComp_comm (c1 c2 : Comp) (F : Comp → Comp → ℝ) :
    (turnComp Q c1 fun d1 => turnComp Q c2 fun d2 => F d1 d2) = turnComp Q c2 fun d2 => turnComp Q c1 fun d1 => F d1 d2 := by
  cases c1 <;> cases c2 <;> simp only [turnComp, Finset.mul_sum] <;> rw [Finset.sum_comm] <;>
    exact Finset.sum_congr rfl fun _ _ => Finset.sum_congr rfl fun _ _ => by ring

theorem turnComp_sum (c : Comp) {ι : Type} (s : Finset ι) (F : ι → Comp → ℝ) :
    (turnComp Q c fun d => ∑ i ∈ s, F i d) = ∑ i ∈ s, turnComp Q c (F i) := by
  cases c <;> simp only [turnComp, Finset.mul_sum] <;> exact Finset.sum_comm

theorem turnComp_order {c : Comp} {F G : Comp → ℝ} (h : ∀ d, order d = order c → F d = G d) :
    turnComp Q c F = turnComp Q c G := by
  cases c <;> simp only [turnComp] <;> exact Finset.sum_congr rfl fun b _ => mul_eq_mul_left_iff.mpr (Or.inl (h _ (by rfl)))

theorem nearSelf_turn (z : Scalars) (a : ℝ) {d : Fin 3 → ℝ} (hd : dotp d d = 1) (c1 c2 : Comp) :
    nearSelf z a (turnVec Q d) c1 c2
      = turnComp Q c1 fun d1 => turnComp Q c2 fun d2 => nearSelf z a d d1 d2 := by
  by_cases h : order c2 ≤ order c1
  · rw [nearSelf, if_pos h, nearDirect_turn hQ z a hd]
    refine turnComp_order hQ fun d1 e1 => turnComp_order hQ fun d2 e2 => ?_
    rw [nearSelf, if_pos (by omega)]
  · rw [nearSelf, if_neg h, nearDirect_turn hQ z a hd, turnComp_comm hQ]
    refine turnComp_order hQ fun d1 e1 => turnComp_order hQ fun d2 e2 => ?_
    rw [nearSelf, if_neg (by omega)]

theorem nearPair_turn (zab zba : Scalars) (first : Prop) [Decidable first] (a b : ℝ) {d : Fin 3 → ℝ}
    (hd : dotp d d = 1) (c1 c2 : Comp) :
    nearPair zab zba first a b (turnVec Q d) c1 c2
      = turnComp Q c1 fun d1 => turnComp Q c2 fun d2 => nearPair zab zba first a b d d1 d2 := by
  have hn : (fun i => -turnVec Q d i) = turnVec Q fun i => -d i := by
    have := turnVec_neg Q d
    exact this.symm
  have hd' : dotp (fun i => -d i) (fun i => -d i) = 1 := by rw [← hd]; simp only [dotp]; ring
  by_cases h : order c2 < order c1 ∨ (order c2 = order c1 ∧ first)
  · rw [nearPair, if_pos h, nearDirect_turn hQ _ a hd]
    refine turnComp_order hQ fun d1 e1 => turnComp_order hQ fun d2 e2 => ?_
    rw [nearPair, if_pos (by rw [e1, e2]; exact h)]
  · rw [nearPair, if_neg h, hn, nearDirect_turn hQ _ b hd', turnComp_comm hQ]
    refine turnComp_order hQ fun d1 e1 => turnComp_order hQ fun d2 e2 => ?_
    rw [nearPair, if_neg (by rw [e1, e2]; exact h)]

theorem systemNear_turn (Ns n : ℕ) (bb : Bool) (rad : ℕ → ℝ) (scal : ℕ → ℝ → ℝ → Scalars)
    {link link' : ℕ → ℕ → Option ((Fin 3 → ℝ) × ℝ)}
    (hl : ∀ x < n, ∀ y < n, x ≠ y → link' x y = (link x y).map fun p => (turnVec Q p.1, p.2))
    (hu : ∀ x < n, ∀ y < n, x ≠ y → ∀ p ∈ link x y, dotp p.1 p.1 = 1)
    {x y : ℕ} (hx : x < n) (hy : y < n) (c1 c2 : Comp) :
    systemNear Ns n bb rad scal link' x c1 y c2
      = turnComp Q c1 fun d1 => turnComp Q c2 fun d2 => systemNear Ns n bb rad scal link x d1 y d2 := by
  unfold systemNear
  by_cases h1 : x = y
  · simp only [if_pos h1, turnComp_sum hQ]
    refine Finset.sum_congr rfl fun z hz => ?_
    have hz' := Finset.mem_range.mp hz
    by_cases h2 : z = x
    · simp only [if_pos h2, turnComp_zero]
    · simp only [if_neg h2]
      rw [hl x hx z hz' (Ne.symm h2)]
      cases h3 : link x z with
      | none => simp only [Option.map_none, turnComp_zero]
      | some p => exact nearSelf_turn hQ _ _ (hu x hx z hz' (Ne.symm h2) p h3) _ _
  · by_cases h2 : bb = false ∧ Ns ≤ x ∧ Ns ≤ y
    · simp only [if_neg h1, if_pos h2, turnComp_zero]
    · simp only [if_neg h1, if_neg h2]
      rw [hl x hx y hy h1]
      cases h3 : link x y with
      | none => simp only [Option.map_none, turnComp_zero]
      | some p => exact nearPair_turn hQ _ _ _ _ _ (hu x hx y hy h1 p h3) _ _

theorem openLink_turn (κ : ℝ) (ctr : ℕ → Fin 3 → ℝ) (rad : ℕ → ℝ) (x y : ℕ) :
    openLink κ (fun u => turnVec Q (ctr u)) rad x y
      = (openLink κ ctr rad x y).map fun p => (turnVec Q p.1, p.2) := by
  unfold openLink
  dsimp only
  rw [← turnVec_sub, len_turn hQ]
  split_ifs
  · simp only [Option.map_some]
    congr 2
    have := turnVec_smul Q (len fun i => ctr y i - ctr x i)⁻¹ fun i => ctr y i - ctr x i
    funext i
    have := congrFun this i
    rw [turnVec_sub] at this
    simp only [div_eq_inv_mul]
    exact this.symm
  · rfl

/-! ## Coefficients of a rotation -/

omit hQ in
/-- The coefficients of a rotation or reflection. -/
noncomputable def turnK (Q : Fin 3 → Fin 3 → ℝ) : Comp → Comp → ℝ
  | .f i, .f j => Q i j
  | .t i, .t j => det3 Q * Q i j
  | .s p, .s q => rep5 Q p q
  | _, _ => 0

omit hQ in
theorem mix_turnK (c : Comp) (F : Comp → ℝ) : mix (turnK Q) c F = turnComp Q c F := by
  cases c <;> rfl

theorem transpose_orth : Orthogonal fun i j => Q j i := fun i j => orth_col hQ i j

theorem rep5_transpose (p q : Fin 5) : rep5 (fun i j => Q j i) p q = rep5 Q q p := by
  simp only [rep5, turnMat, Fin.sum_univ_three]
  ring

omit hQ in
theorem sum_orth {n : ℕ} {K : Fin n → Fin n → ℝ} (h : ∀ a b, ∑ k, K k a * K k b = if a = b then 1 else 0)
    (F G : Fin n → ℝ) : ∑ i, (∑ j, K i j * F j) * (∑ j, K i j * G j) = ∑ i, F i * G i := by
  have e : ∑ i, (∑ j, K i j * F j) * (∑ j, K i j * G j) = ∑ a, ∑ b, (∑ k, K k a * K k b) * (F a * G b) := by
    simp only [Finset.sum_mul_sum]
    rw [Finset.sum_comm]
    refine Finset.sum_congr rfl fun a _ => ?_
    rw [Finset.sum_comm]
    refine Finset.sum_congr rfl fun b _ => ?_
    rw [Finset.sum_mul]
    exact Finset.sum_congr rfl fun k _ => by ring
  rw [e]
  simp [h]

theorem rep5_col (p q : Fin 5) : ∑ k, rep5 Q k p * rep5 Q k q = if p = q then 1 else 0 := by
  have := rep5_orth (transpose_orth hQ) p q
  simpa only [rep5_transpose hQ] using this

theorem dual_turnK : Dual (turnK Q) (turnK Q) := by
  have c := orth_col hQ
  have dd := det_sq hQ
  constructor <;> intro F G <;> simp only [mix, turnK]
  · exact sum_orth (fun a b => by rw [c]; rfl) (fun i => F (.f i)) fun i => G (.f i)
  · refine sum_orth (K := fun i j => det3 Q * Q i j) (fun a b => ?_) (fun i => F (.t i)) fun i => G (.t i)
    have : ∑ k, det3 Q * Q k a * (det3 Q * Q k b) = ∑ k, Q k a * Q k b :=
      Finset.sum_congr rfl fun k _ => by linear_combination (Q k a * Q k b) * dd
    rw [this, c]; rfl
  · exact sum_orth (rep5_col hQ) (fun i => F (.s i)) fun i => G (.s i)

theorem undo_turnK {Ns Nd : ℕ} {β : ℕ → ℕ} (hβ : Renum Ns Nd β) : Undo Ns Nd (turnK Q) β := by
  refine undo_of hβ (Kd := turnK Q) (K' := fun c d => turnK Q d c) (dual_turnK hQ) fun c F => ?_
  have pick : ∀ {n : ℕ} {K : Fin n → Fin n → ℝ} (_ : ∀ a b, ∑ k, K a k * K b k = if a = b then 1 else 0)
      (F : Fin n → ℝ) (i : Fin n), ∑ j, K i j * ∑ l, K l j * F l = F i := by
    intro n K h F i
    have e : ∑ j, K i j * ∑ l, K l j * F l = ∑ l, (∑ j, K i j * K l j) * F l := by
      simp only [Finset.mul_sum, Finset.sum_mul]
      rw [Finset.sum_comm]
      exact Finset.sum_congr rfl fun _ _ => Finset.sum_congr rfl fun _ _ => by ring
    rw [e]
    simp [h]
  have dd := det_sq hQ
  cases c with
  | f i => exact pick (K := Q) (fun a b => by rw [hQ]; rfl) (fun i => F (.f i)) i
  | t i =>
    refine pick (K := fun i j => det3 Q * Q i j) (fun a b => ?_) (fun i => F (.t i)) i
    have : ∑ k, det3 Q * Q a k * (det3 Q * Q b k) = ∑ k, Q a k * Q b k :=
      Finset.sum_congr rfl fun k _ => by linear_combination (Q a k * Q b k) * dd
    rw [this, hQ]; rfl
  | s i => exact pick (K := rep5 Q) (rep5_orth hQ) (fun i => F (.s i)) i

end

end SD.Cov
