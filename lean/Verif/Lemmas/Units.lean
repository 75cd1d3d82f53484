import Verif.Lemmas.CovarianceGrand
import Mathlib.Analysis.Calculus.Deriv.Shift
import Mathlib.Analysis.Calculus.Deriv.Mul

/-!
# Multiplying all lengths by a constant
-/

set_option autoImplicit false

namespace SD.Cov

open Spec

section
variable {k : ℝ} (hk : 0 < k)
include hk

theorem len_scale (r : Fin 3 → ℝ) : len (fun i => k * r i) = k * len r := by
  unfold len
  rw [show ∑ i, (k * r i) ^ 2 = k ^ 2 * ∑ i, r i ^ 2 by simp only [mul_pow, Finset.mul_sum],
    Real.sqrt_mul (by positivity), Real.sqrt_sq hk.le]

theorem pd_scale {f g : (Fin 3 → ℝ) → ℝ} {q : ℝ} (h : ∀ y, f (fun i => k * y i) = q * g y) (l : Fin 3)
    (y : Fin 3 → ℝ) : pd l f (fun i => k * y i) = q / k * pd l g y := by
  unfold pd
  have e : (fun t => f (Function.update (fun i => k * y i) l t))
      = fun t => q * g (Function.update y l (k⁻¹ * t)) := by
    funext t
    rw [← h]
    congr 1
    funext i
    by_cases hi : i = l
    · subst hi; simp [hk.ne']
    · simp [Function.update_of_ne hi]
  rw [e, deriv_const_mul_field, deriv_comp_mul_left k⁻¹ fun s => g (Function.update y l s)]
  rw [smul_eq_mul, inv_mul_cancel_left₀ hk.ne', ← mul_assoc, div_eq_mul_inv]

theorem lap_scale {f g : (Fin 3 → ℝ) → ℝ} {q : ℝ} (h : ∀ y, f (fun i => k * y i) = q * g y) (y : Fin 3 → ℝ) :
    lap f (fun i => k * y i) = q / k / k * lap g y := by
  unfold lap
  rw [Finset.mul_sum]
  exact Finset.sum_congr rfl fun l _ => pd_scale hk (pd_scale hk h l) l y

theorem oseen_scale (i j : Fin 3) (y : Fin 3 → ℝ) : oseen i j (fun m => k * y m) = 1 / k * oseen i j y := by
  unfold oseen
  rw [len_scale hk]
  by_cases h : len y = 0
  · simp [h]
  · field_simp

/-- Powers of the length in a load. -/
noncomputable def wl (k : ℝ) : Load → ℝ
  | .force _ => 1
  | .torque _ => k
  | .stress _ _ => k

theorem flow_scale (b : ℝ) (ld : Load) (m : Fin 3) (y : Fin 3 → ℝ) :
    flow (k * b) ld m (fun i => k * y i) = 1 / (k * wl k ld) * flow b ld m y := by
  have h1 := fun i j => oseen_scale hk i j
  have h2 := fun i j l => pd_scale hk (h1 i j) l
  cases ld with
  | force j => simp only [flow, wl, h1, lap_scale hk (h1 m j)]; field_simp
  | torque j =>
    simp only [flow, wl, h2]
    simp only [Fin.sum_univ_three]
    field_simp
  | stress j l =>
    simp only [flow, wl, h2, lap_scale hk (h2 m j l), lap_scale hk (h2 m l j)]
    field_simp

theorem response_scale (a b : ℝ) (l1 l2 : Load) (r : Fin 3 → ℝ) :
    response (k * a) (k * b) l1 l2 (fun i => k * r i) = 1 / (k * wl k l1 * wl k l2) * response a b l1 l2 r := by
  have h1 := fun m => flow_scale hk b l2 m
  have h2 := fun m l => pd_scale hk (h1 m) l
  have hw : wl k l2 ≠ 0 := by cases l2 <;> simp [wl, hk.ne']
  unfold response
  cases l1 with
  | force i => simp only [faxen, wl, h1, lap_scale hk (h1 i)]; field_simp
  | torque j =>
    simp only [faxen, h2]
    simp only [wl, Fin.sum_univ_three]
    field_simp
  | stress i j =>
    simp only [faxen, h2, lap_scale hk (h2 i j), lap_scale hk (h2 j i)]
    simp only [wl]
    field_simp

theorem respTo_scale (a b : ℝ) (l1 : Load) (c : Comp) (r : Fin 3 → ℝ) :
    respTo (k * a) (k * b) l1 c (fun i => k * r i) = 1 / (k * wl k l1 * k ^ lengths c) * respTo a b l1 c r := by
  cases c with
  | f j => simp only [respTo, response_scale hk, wl, lengths, pow_zero]
  | t j => simp only [respTo, response_scale hk, wl, lengths, pow_one]
  | s q =>
    simp only [respTo, response_scale hk, wl, lengths, pow_one, Finset.mul_sum]
    exact Finset.sum_congr rfl fun _ _ => Finset.sum_congr rfl fun _ _ => by ring

theorem five_mul_left (c : ℝ) (S : Fin 3 → Fin 3 → ℝ) (p : Fin 5) : five (fun i j => c * S i j) p = c * five S p := by
  fin_cases p <;> simp [five] <;> ring

theorem pairMob_scale (a b : ℝ) (c1 c2 : Comp) (r : Fin 3 → ℝ) :
    pairMob (k * a) (k * b) c1 c2 (fun i => k * r i)
      = 1 / (k * k ^ lengths c1 * k ^ lengths c2) * pairMob a b c1 c2 r := by
  cases c1 with
  | f i => simp only [pairMob, respTo_scale hk, wl, lengths, pow_zero]
  | t i => simp only [pairMob, respTo_scale hk, wl, lengths, pow_one]
  | s p =>
    simp only [pairMob, respTo_scale hk, wl, show lengths (.s p) = 1 from rfl, pow_one]
    exact five_mul_left hk _ _ p

theorem selfMob_scale (mu a : ℝ) (c1 c2 : Comp) :
    selfMob mu (k * a) c1 c2 = 1 / (k * k ^ lengths c1 * k ^ lengths c2) * selfMob mu a c1 c2 := by
  cases c1 <;> cases c2 <;> simp only [selfMob, lengths, mul_zero, pow_zero, pow_one, mul_one] <;> split_ifs <;>
    first
      | (rw [← one_div_mul_one_div, ← one_div_mul_one_div, ← one_div_mul_one_div]; try ring1)
      | skip
  all_goals first
    | (simp only [one_div, mul_inv, mul_pow]; ring1)
    | simp

theorem sep_scale (r : Fin 3 → ℝ) (a b : ℝ) :
    sep (fun i => k * r i) (k * a) (k * b) = fun i => k * sep r a b i := by
  unfold sep
  have e : 2.001 * ((k * a + k * b) / 2) = k * (2.001 * ((a + b) / 2)) := by ring
  rw [len_scale hk, e]
  by_cases h : len r < 2.001 * ((a + b) / 2)
  · rw [if_pos h, if_pos (mul_lt_mul_of_pos_left h hk)]
    funext i
    rw [mul_div_mul_left _ _ hk.ne']
    ring
  · rw [if_neg h, if_neg fun h' => h (lt_of_mul_lt_mul_left h' hk.le)]

theorem systemMob_scale (Ns : ℕ) (bb : Bool) (ctr : ℕ → Fin 3 → ℝ) (rad : ℕ → ℝ) (mu : ℝ) (x y : ℕ) (c1 c2 : Comp) :
    systemMob Ns bb (fun u i => k * ctr u i) (fun u => k * rad u) mu x c1 y c2
      = 1 / (k * k ^ lengths c1 * k ^ lengths c2) * systemMob Ns bb ctr rad mu x c1 y c2 := by
  unfold systemMob
  split_ifs
  · exact selfMob_scale hk _ _ _ _
  · simp
  · have e : (fun i => k * ctr x i - k * ctr y i) = fun i => k * (fun i => ctr x i - ctr y i) i := by
      funext i; ring
    rw [e, sep_scale hk, pairMob_scale hk]
    ring

/-! ## Near field -/

theorem nearDirect_scale (z : Scalars) (a : ℝ) (d : Fin 3 → ℝ) (c1 c2 : Comp) :
    nearDirect z (k * a) d c1 c2 = k * k ^ lengths c1 * k ^ lengths c2 * nearDirect z a d c1 c2 := by
  have h0 : ∀ x : Fin 3 → ℝ, cross 0 x = 0 := by
    intro x; funext i; fin_cases i <;> simp [cross]
  have h1 : ∀ x : Fin 3 → ℝ, app 0 x = 0 := by
    intro x; funext i; simp [app, dotp]
  have h2 : ∀ x : Fin 3 → ℝ, dotp x 0 = 0 := by
    intro x; simp [dotp]
  cases c1 <;> cases c2 <;>
    simp only [nearDirect, lengths, mul_zero, pow_zero, pow_one, mul_one] <;>
    first
      | rfl
      | (simp only [nearForce]; ring1)
      | (simp only [nearTorque, h0, h2, Pi.zero_apply]; ring1)
      | (rw [← five_mul_left hk]
         congr 1
         funext i j
         simp only [nearStress, h0, h1, h2, Pi.zero_apply]
         ring1)

theorem openLink_scale (κ : ℝ) (ctr : ℕ → Fin 3 → ℝ) (rad : ℕ → ℝ) (x y : ℕ) :
    openLink κ (fun u i => k * ctr u i) (fun u => k * rad u) x y = openLink κ ctr rad x y := by
  unfold openLink
  dsimp only
  have e : (fun i => k * ctr y i - k * ctr x i) = fun i => k * (fun i => ctr y i - ctr x i) i := by
    funext i; ring
  have e2 : (k * rad x + k * rad y) / 2 = k * ((rad x + rad y) / 2) := by ring
  rw [e, len_scale hk, e2, mul_div_mul_left _ _ hk.ne']
  split_ifs
  · congr 2
    funext i
    rw [← mul_sub, mul_div_mul_left _ _ hk.ne']
  · rfl

theorem systemNear_scale (Ns n : ℕ) (bb : Bool) (rad : ℕ → ℝ) (scal : ℕ → ℝ → ℝ → Scalars)
    (link : ℕ → ℕ → Option ((Fin 3 → ℝ) × ℝ)) (x : ℕ) (c1 : Comp) (y : ℕ) (c2 : Comp) :
    systemNear Ns n bb (fun u => k * rad u) scal link x c1 y c2
      = k * k ^ lengths c1 * k ^ lengths c2 * systemNear Ns n bb rad scal link x c1 y c2 := by
  unfold systemNear
  simp only [mul_div_mul_left _ _ hk.ne']
  split_ifs with h1 h2
  · rw [Finset.mul_sum]
    refine Finset.sum_congr rfl fun z _ => ?_
    split_ifs
    · simp
    · cases link x z with
      | none => simp
      | some p =>
        simp only [nearSelf]
        split_ifs
        · exact nearDirect_scale hk _ _ _ _ _
        · rw [nearDirect_scale hk]; ring
  · simp
  · cases link x y with
    | none => simp
    | some p =>
      simp only [nearPair]
      split_ifs
      · exact nearDirect_scale hk _ _ _ _ _
      · rw [nearDirect_scale hk]; ring

/-! ## Configurations -/

omit hk in
theorem centre_rescaled (P : PosData) : centre (rescaled P k) = fun u i => k * centre P u i := by
  funext u i
  show (if u < P.Ns then k * P.spherePos u i
    else if u < P.Ns + P.Nd then k * P.dumbPos (u - P.Ns) i - k * P.dumbDx (u - P.Ns) i / 2
    else k * P.dumbPos (u - (P.Ns + P.Nd)) i + k * P.dumbDx (u - (P.Ns + P.Nd)) i / 2) = _
  simp only [centre]
  split_ifs <;> ring

omit hk in
theorem radius_rescaled (P : PosData) : radius (rescaled P k) = fun u => k * radius P u := by
  funext u
  show (if u < P.Ns then k * P.sphereSize u
    else if u < P.Ns + P.Nd then k * P.dumbSize (u - P.Ns) else k * P.dumbSize (u - (P.Ns + P.Nd))) = _
  simp only [radius]
  split_ifs <;> rfl

theorem tabulated_rescaled {lams : List ℝ} {P : PosData} {κ : ℝ} (h : Tabulated lams P κ) :
    Tabulated lams (rescaled P k) κ := by
  intro x hx y hy hxy
  rw [centre_rescaled, radius_rescaled, openLink_scale hk] at hxy
  rw [radius_rescaled]
  simp only [mul_div_mul_left _ _ hk.ne']
  exact h x hx y hy hxy

end

/-! ## Diagonal coefficients -/

/-- Coefficients that only multiply. -/
noncomputable def diagK (w : Comp → ℝ) : Comp → Comp → ℝ
  | .f i, .f j => if i = j then w (.f i) else 0
  | .t i, .t j => if i = j then w (.t i) else 0
  | .s p, .s q => if p = q then w (.s p) else 0
  | _, _ => 0

theorem mix_diagK (w : Comp → ℝ) (c : Comp) (F : Comp → ℝ) : mix (diagK w) c F = w c * F c := by
  cases c <;> simp [mix, diagK]

theorem dual_diagK {w w' : Comp → ℝ} (h : ∀ c, w c * w' c = 1) : Dual (diagK w) (diagK w') := by
  constructor <;> intro F G <;> refine Finset.sum_congr rfl fun i _ => ?_ <;> rw [mix_diagK, mix_diagK] <;>
    [have := h (.f i); have := h (.t i); have := h (.s i)]
  · linear_combination (F (.f i) * G (.f i)) * this
  · linear_combination (F (.t i) * G (.t i)) * this
  · linear_combination (F (.s i) * G (.s i)) * this

theorem undo_diagK {Ns Nd : ℕ} {β : ℕ → ℕ} (hβ : Renum Ns Nd β) {w w' : Comp → ℝ} (h : ∀ c, w c * w' c = 1) :
    Undo Ns Nd (diagK w) β := by
  refine undo_of hβ (Kd := diagK w') (K' := diagK w') (dual_diagK fun c => by rw [mul_comm]; exact h c) fun c F => ?_
  rw [mix_diagK, mix_diagK, ← mul_assoc, h, one_mul]

/-- The drag coefficients by bead. -/
noncomputable def dragComp (P : PosData) (u : ℕ) : Comp → ℝ
  | .f _ => if u < P.Ns then radius P u else 2 * radius P u
  | .t _ => 4 / 3 * radius P u ^ 3
  | .s _ => 10 / 9 * radius P u ^ 3

theorem drag_row (P : PosData) {u : ℕ} {c : Comp} (h : HasRow P.Ns P.Nd u c) :
    drag P (row P.Ns u c) = dragComp P u c := by
  cases c with
  | f i =>
    have := i.isLt
    have h' : u < P.Ns + 2 * P.Nd := h
    simp only [row, dragComp, radius]
    by_cases h1 : u < P.Ns
    · rw [if_pos h1, if_pos h1, if_pos h1]
      unfold drag
      rw [if_pos (by omega), show (3 * u + (i : ℕ)) / 3 = u by omega]
    · rw [if_neg h1, if_neg h1, if_neg h1]
      unfold drag
      rw [if_neg (by omega), if_neg (by omega), if_neg (by omega)]
      by_cases h2 : u < P.Ns + P.Nd
      · rw [if_pos (by omega), if_pos h2,
          show (11 * P.Ns + 3 * (u - P.Ns) + (i : ℕ) - 11 * P.Ns) / 3 = u - P.Ns by omega]
      · rw [if_neg (by omega), if_neg h2,
          show (11 * P.Ns + 3 * (u - P.Ns) + (i : ℕ) - (11 * P.Ns + 3 * P.Nd)) / 3 = u - (P.Ns + P.Nd) by omega]
  | t i =>
    have := i.isLt
    have h' : u < P.Ns := h
    simp only [row, dragComp, radius, if_pos h']
    unfold drag
    rw [if_neg (by omega), if_pos (by omega), show (3 * P.Ns + 3 * u + (i : ℕ) - 3 * P.Ns) / 3 = u by omega]
  | s p =>
    have := p.isLt
    have h' : u < P.Ns := h
    simp only [row, dragComp, radius, if_pos h']
    unfold drag
    rw [if_neg (by omega), if_neg (by omega), if_pos (by omega),
      show (6 * P.Ns + 5 * u + (p : ℕ) - 6 * P.Ns) / 5 = u by omega]

/-- The drag approximation under a change. -/
theorem drag_acts {P P' : PosData} {β : ℕ → ℕ} (hn : P'.Ns = P.Ns) (hd : P'.Nd = P.Nd)
    (hβ : Renum P.Ns P.Nd β) {Kl Km : Comp → Comp → ℝ}
    (h : ∀ u c F, HasRow P.Ns P.Nd u c → dragComp P' u c * mix Km c F = dragComp P (β u) c * mix Kl c F)
    (v v' : ℕ → ℝ) (hv : Acts P.Ns P.Nd Km β v v') :
    Acts P.Ns P.Nd Kl β (fun i => drag P i * v i) fun i => drag P' i * v' i := by
  intro u c hu
  have e' : drag P' (row P.Ns u c) = dragComp P' u c := by
    have := drag_row P' (u := u) (c := c) (by rw [hn, hd]; exact hu)
    rwa [hn] at this
  simp only
  rw [e', hv u c hu, h u c _ hu, ← mix_mul']
  apply mix_congr
  cases c with
  | f i => intro j; rw [drag_row P (hβ.hasRow (c := .f j) hu)]; rfl
  | t i => intro j; rw [drag_row P (hβ.hasRow (c := .t j) hu)]; rfl
  | s i => intro j; rw [drag_row P (hβ.hasRow (c := .s j) hu)]; rfl

end SD.Cov
