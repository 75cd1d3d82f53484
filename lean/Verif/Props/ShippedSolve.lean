import Verif.Props.ShippedTable
import Verif.Lemmas.StrainSlack
import Verif.Lemmas.Packing
import Verif.Lemmas.FarStrain

/-!
# Suspensions of equal beads are solved with the table that comes with the program (C86)

The energy that the near field of the shipped table can feed into a suspension of equal beads is less than what the
far field takes out of it when the spheres are strained, so that the sum is still positive definite.
-/

set_option autoImplicit false

namespace SD

open Spec Near

/-- Bead `y` is a close neighbour of bead `x`. -/
def Spec.Close (P : PosData) (a : ℝ) (x y : ℕ) : Prop := x ≠ y ∧ radiiApart P a x y ≤ 2.0231

theorem len_turn_round (u v : Fin 3 → ℝ) : len (fun i => u i - v i) = len (fun i => v i - u i) := by
  unfold len
  exact congrArg _ (Finset.sum_congr rfl fun i _ => by ring)

theorem close_comm {P : PosData} {a : ℝ} {x y : ℕ} : Close P a x y ↔ Close P a y x := by
  unfold Close radiiApart
  rw [len_turn_round, ne_comm]

open Classical in
/-- A bead has at most 27 close neighbours. -/
theorem close_count {P : PosData} {a : ℝ} (ha : 0 < a) (hE : EqualBeads P a) (hS : Separate P) {x : ℕ} :
    ((Finset.range (beads P)).filter fun y => Close P a x y).card ≤ 27 := by
  have h := pack_count (centre P) ((Finset.range (beads P)).filter fun y => Close P a x y) (del := 1.0005 * a)
    (R := 2.0231 * a) (by positivity) (by positivity) (centre P x) (by
      intro y hy
      have := (Finset.mem_filter.mp hy).2.2
      rwa [radiiApart, div_le_iff₀ ha] at this) (by
      intro y hy z hz hyz
      have hy' := Finset.mem_range.mp (Finset.mem_filter.mp hy).1
      have hz' := Finset.mem_range.mp (Finset.mem_filter.mp hz).1
      have := hS y hy' z hz' hyz
      rw [hE y hy', hE z hz'] at this
      refine le_trans (le_of_eq ?_) this
      ring)
  by_contra hc
  push Not at hc
  have h28 : (28 : ℝ) ≤ ((Finset.range (beads P)).filter fun y => Close P a x y).card := by exact_mod_cast hc
  have a3 : 0 < a ^ 3 := by positivity
  have : (2.0231 * a + 1.0005 * a) ^ 3 = (2.0231 + 1.0005) ^ 3 * a ^ 3 := by ring
  rw [this, mul_pow] at h
  have : ((2.0231 + 1.0005) ^ 3 : ℝ) * a ^ 3 < 28 * (1.0005 ^ 3 * a ^ 3) := by
    rw [← mul_assoc]
    exact mul_lt_mul_of_pos_right (by norm_num) a3
  have := mul_le_mul_of_nonneg_right h28 (show (0 : ℝ) ≤ 1.0005 ^ 3 * a ^ 3 by positivity)
  linarith

/-- Square of the strain rates of a bead. -/
def strainSq (m : ℕ → Comp → ℝ) (x : ℕ) : ℝ := ∑ p, m x (.s p) ^ 2

theorem strain_diff (w1 w2 : Comp → ℝ) :
    ∑ p, (w1 (.s p) - w2 (.s p)) ^ 2 ≤ 2 * (∑ p, w1 (.s p) ^ 2 + ∑ p, w2 (.s p) ^ 2) := by
  rw [← Finset.sum_add_distrib, Finset.mul_sum]
  exact Finset.sum_le_sum fun p _ => by nlinarith [sq_nonneg (w1 (.s p) + w2 (.s p))]

/-- A bound on the energy fed into the whole suspension. -/
theorem equal_form {P : PosData} {a : ℝ} (ha : 0 < a) (hE : EqualBeads P a) (hP : Sensible P) (hS : Separate P)
    {k : ℝ} (hk : 0 < k) (bb : Bool) (m : ℕ → Comp → ℝ) :
    -(20 / 3 * Real.pi * a ^ 3 * (5 / 1024) * 54 * ∑ x ∈ Finset.range (beads P), strainSq m x)
      ≤ ∑ x ∈ Finset.range (beads P), ∑ y ∈ Finset.range (beads P), share P.Ns bb (radius P) (tableScal shippedTable)
        (openLink k (centre P) (radius P)) m x y := by
  classical
  set c := 20 / 3 * Real.pi * a ^ 3 * (5 / 1024) with hc
  have hcp : 0 < c := by have := Real.pi_pos; positivity
  have sq0 : ∀ x, 0 ≤ strainSq m x := fun x => Finset.sum_nonneg fun p _ => sq_nonneg _
  have key : ∀ x < beads P, ∀ y < beads P, x < y →
      0 ≤ share P.Ns bb (radius P) (tableScal shippedTable) (openLink k (centre P) (radius P)) m x y
        + share P.Ns bb (radius P) (tableScal shippedTable) (openLink k (centre P) (radius P)) m y x
        + 2 * c * (if Close P a x y then strainSq m x + strainSq m y else 0) := by
    intro x hx y hy hxy
    have hn : 0 ≤ 2 * c * (if Close P a x y then strainSq m x + strainSq m y else 0) := by
      have h1 := sq0 x
      have h2 := sq0 y
      split_ifs
      · positivity
      · simp
    rcases near_mutual hP hk x hx y hy hxy.ne with ⟨h1, h2⟩ | ⟨d, s, hd, h1, h2⟩
    · unfold share
      rw [if_neg hxy.ne, if_neg hxy.ne', h1, h2]
      simpa using hn
    · rw [shares_pair m hxy h1 h2, hE x hx, hE y hy, div_self ha.ne']
      have hs := equal_link hE hx hy h1
      by_cases hcl : Close P a x y
      · rw [if_pos hcl]
        split_ifs
        · have b1 := shipped_lower hd s ha (m x) (fun _ => 0)
          have b2 := shipped_lower hd s ha (fun _ => 0) (m y)
          simp only [sub_zero, zero_sub, even_two.neg_pow] at b1 b2
          rw [← hc] at b1 b2
          change -(c * strainSq m x) ≤ _ at b1
          change -(c * strainSq m y) ≤ _ at b2
          nlinarith [mul_nonneg hcp.le (sq0 x), mul_nonneg hcp.le (sq0 y)]
        · have b := shipped_lower hd s ha (m x) (m y)
          rw [← hc] at b
          have := mul_le_mul_of_nonneg_left (strain_diff (m x) (m y)) hcp.le
          unfold strainSq
          linarith
      · have h := shipped_dissipative (s := s) (.inr (by
          rw [hs]
          unfold Close at hcl
          push Not at hcl
          exact (hcl hxy.ne).le)) ha
        refine add_nonneg ?_ hn
        split_ifs
        · exact add_nonneg (pairPower_nonneg d hd h _ _) (pairPower_nonneg d hd h _ _)
        · exact pairPower_nonneg d hd h _ _
  have tot := double_nonneg (n := beads P) (fun x y =>
    share P.Ns bb (radius P) (tableScal shippedTable) (openLink k (centre P) (radius P)) m x y
      + c * (if Close P a x y then strainSq m x + strainSq m y else 0)) (by
    intro x hx y hy
    rcases lt_trichotomy x y with h | h | h
    · have := key x hx y hy h
      simp only [close_comm (x := y) (y := x), add_comm (strainSq m y)]
      linarith
    · subst h
      have h1 := sq0 x
      unfold share
      simp only [if_true]
      split_ifs
      · positivity
      · simp
    · have := key y hy x hx h
      simp only [close_comm (x := x) (y := y), add_comm (strainSq m x)]
      linarith)
  simp only [Finset.sum_add_distrib, ← Finset.mul_sum] at tot
  have cnt : ∑ x ∈ Finset.range (beads P), ∑ y ∈ Finset.range (beads P),
      (if Close P a x y then strainSq m x + strainSq m y else 0)
      ≤ 54 * ∑ x ∈ Finset.range (beads P), strainSq m x := by
    have e1 : ∀ x y, (if Close P a x y then strainSq m x + strainSq m y else 0)
        = (if Close P a x y then strainSq m x else 0) + if Close P a y x then strainSq m y else 0 := by
      intro x y
      rw [close_comm (x := y) (y := x)]
      split_ifs <;> simp
    simp only [e1, Finset.sum_add_distrib]
    rw [Finset.sum_comm (f := fun x y => if Close P a y x then strainSq m y else 0)]
    have e2 : ∑ x ∈ Finset.range (beads P), ∑ y ∈ Finset.range (beads P), (if Close P a x y then strainSq m x else 0)
        ≤ 27 * ∑ x ∈ Finset.range (beads P), strainSq m x := by
      rw [Finset.mul_sum]
      refine Finset.sum_le_sum fun x _ => ?_
      rw [← Finset.sum_filter, Finset.sum_const, nsmul_eq_mul]
      refine mul_le_mul_of_nonneg_right ?_ (sq0 x)
      exact_mod_cast close_count ha hE hS
    linarith
  have := mul_le_mul_of_nonneg_left cnt hcp.le
  linarith

/-- **C86** (far field). The far field resists straining: whatever the spheres and dumbbells do, the power put into
the fluid is at least that of straining every sphere alone at two fifths of its resistance. -/
theorem C86_far {P : PosData} (hP : Sensible P) (hS : Separate P) {mu : ℝ} (hmu : 0 < mu) {bb : Bool}
    (hbb : bb = true ∨ P.Nd = 0) :
    ∃ C, (generate_Minfinity P mu bb).inv = some C ∧ ∀ v : ℕ → ℝ,
      8 / 3 * Real.pi * mu * ∑ x ∈ Finset.range P.Ns, radius P x ^ 3 * ∑ p : Fin 5, v (row P.Ns x (.s p)) ^ 2
        ≤ ∑ i ∈ Finset.range (side P), v i * mulVec (side P) C.get v i := by
  obtain ⟨C, hC, -⟩ := C59_inverse hP hS hmu hbb
  refine ⟨C, hC, fun v => le_trans (le_of_eq ?_) (strain_power hP hS hmu hbb hC v)⟩
  simp only [Finset.mul_sum]
  refine Finset.sum_congr rfl fun x _ => Finset.sum_congr rfl fun p _ => ?_
  ring

/-- **C86** (energy gained). With the shipped table the near field of equal beads feeds at most
`225/128 · π μ a³` times the squared strain rates of the spheres into the suspension. -/
theorem C86_near {P : PosData} {a : ℝ} (ha : 0 < a) (hE : EqualBeads P a) (hP : Sensible P) (hS : Separate P)
    {k : ℝ} (hk : 0 < k) {mu : ℝ} (hmu : 0 ≤ mu) (bb : Bool) :
    ∃ N, generate_R2Bexact shippedTable P k mu bb = some N ∧ N.rows = side P ∧ N.cols = side P ∧
      (∀ i j, N.get i j = N.get j i) ∧ ∀ v : ℕ → ℝ,
      -(225 / 128 * Real.pi * mu * a ^ 3 * ∑ x ∈ Finset.range P.Ns, ∑ p : Fin 5, v (row P.Ns x (.s p)) ^ 2)
        ≤ ∑ i ∈ Finset.range (side P), v i * mulVec (side P) N.get v i := by
  obtain ⟨N, e1, e2, e3, e4, e5⟩ := near_form hP hk (equal_tabulated ha hE k) mu bb
  refine ⟨N, e1, e2, e3, e4, fun v => ?_⟩
  obtain ⟨w, hw⟩ : ∃ w, ∀ i < side P, toDumbVel P.Ns P.Nd w i = v i := vel_surj P.Ns P.Nd v
  have : ∑ i ∈ Finset.range (side P), v i * mulVec (side P) N.get v i
      = ∑ i ∈ Finset.range (side P), toDumbVel P.Ns P.Nd w i * mulVec (side P) N.get (toDumbVel P.Ns P.Nd w) i :=
    Finset.sum_congr rfl fun i hi => by
      rw [mulVec_congr hw, hw i (Finset.mem_range.mp hi)]
  rw [this, e5]
  have h := mul_le_mul_of_nonneg_left (equal_form ha hE hP hS hk bb (moves P.Ns P.Nd w)) hmu
  refine le_trans (le_of_eq ?_) h
  have hsum : ∑ x ∈ Finset.range (beads P), strainSq (moves P.Ns P.Nd w) x
      = ∑ x ∈ Finset.range P.Ns, ∑ p : Fin 5, v (row P.Ns x (.s p)) ^ 2 := by
    unfold beads
    rw [Finset.range_eq_Ico, ← Finset.sum_Ico_consecutive _ (Nat.zero_le P.Ns) (by omega : P.Ns ≤ P.Ns + 2 * P.Nd),
      ← Finset.range_eq_Ico]
    have z : ∑ x ∈ Finset.Ico P.Ns (P.Ns + 2 * P.Nd), strainSq (moves P.Ns P.Nd w) x = 0 := by
      refine Finset.sum_eq_zero fun x hx => Finset.sum_eq_zero fun p _ => ?_
      have := (Finset.mem_Ico.mp hx).1
      unfold moves
      rw [if_neg (by simp only [HasRow]; omega)]
      simp
    rw [z, add_zero]
    refine Finset.sum_congr rfl fun x hx => Finset.sum_congr rfl fun p _ => ?_
    have hx' := Finset.mem_range.mp hx
    have hr : row P.Ns x (.s p) < 11 * P.Ns := by
      simp only [row]
      have := p.isLt
      omega
    unfold moves
    rw [if_pos (by simp only [HasRow]; omega), ← hw _ (by unfold side; omega), toDumbVel, if_pos hr]
  rw [hsum]
  ring

/-- **C86** (grand). Beads of one size, at least 2.001 radii apart: with the table that comes with the program the
whole resistance matrix is symmetric and positive definite at every cutoff, although its near-field part need not
be, and every complete input of every allowed form is solved. -/
theorem C86_solvable {P : PosData} {a : ℝ} (ha : 0 < a) (hE : EqualBeads P a) (hP : Sensible P) (hS : Separate P)
    {k : ℝ} (hk : 0 < k) {mu : ℝ} (hmu : 0 < mu) {bb : Bool} (hbb : bb = true ∨ P.Nd = 0) (last : NDMat) :
    ∃ R C, generate_grand_resistance_matrix shippedTable P last true k false false mu bb = some (R, C) ∧
      Symm R.get (side P) ∧ PosDef R.get (side P) ∧
      ∀ {form : InputForm} {inp : Inputs}, formAllowed form P.Ns → Sized P.Ns P.Nd inp →
        Complete form P.Ns P.Nd inp → ∃ out, solveForm form false P.Ns P.Nd R inp = some out := by
  obtain ⟨C, hC, hr, hc, hp⟩ := C59_inverse hP hS hmu hbb
  obtain ⟨C', hC', hf⟩ := C86_far hP hS hmu hbb
  obtain rfl : C = C' := by rw [hC] at hC'; simpa using hC'
  obtain ⟨N, hN, n1, n2, n3, n4⟩ := C86_near ha hE hP hS hk hmu.le bb
  have hCs := inv_symm hC (Minfinity_symm P mu bb)
  have hadd : ∀ (w : ℕ → ℝ) (i : ℕ), mulVec (side P) (N.add C).get w i
      = mulVec (side P) N.get w i + mulVec (side P) C.get w i := by
    intro w i
    unfold mulVec
    rw [← Finset.sum_add_distrib]
    exact Finset.sum_congr rfl fun j _ => by simp only [NDMat.add]; ring
  have hsy : Symm (N.add C).get (side P) := fun i _ j _ => by
    show N.get i j + C.get i j = N.get j i + C.get j i
    rw [n3 i j, hCs i j]
  have hpd : PosDef (N.add C).get (side P) := by
    rw [posDef_iff]
    intro w hw
    have h1 := posDef_iff.mp hp w hw
    have h2 := hf w
    have h3 := n4 w
    have e : ∑ x ∈ Finset.range P.Ns, radius P x ^ 3 * ∑ p : Fin 5, w (row P.Ns x (.s p)) ^ 2
        = a ^ 3 * ∑ x ∈ Finset.range P.Ns, ∑ p : Fin 5, w (row P.Ns x (.s p)) ^ 2 := by
      rw [Finset.mul_sum]
      refine Finset.sum_congr rfl fun x hx => ?_
      rw [hE x (by have := Finset.mem_range.mp hx; unfold beads; omega)]
    rw [e] at h2
    have pos : 0 ≤ Real.pi * mu * a ^ 3 * ∑ x ∈ Finset.range P.Ns, ∑ p : Fin 5, w (row P.Ns x (.s p)) ^ 2 := by
      have := Real.pi_pos
      have : 0 ≤ ∑ x ∈ Finset.range P.Ns, ∑ p : Fin 5, w (row P.Ns x (.s p)) ^ 2 :=
        Finset.sum_nonneg fun x _ => Finset.sum_nonneg fun p _ => sq_nonneg _
      positivity
    simp only [hadd, mul_add, Finset.sum_add_distrib]
    nlinarith
  refine ⟨N.add C, C, ?_, hsy, hpd, fun {form inp} hf hs hcm => C09_spd_succeeds hf hs n1 n2 hsy hpd hcm⟩
  unfold generate_grand_resistance_matrix
  simp only [if_true, Option.bind_eq_bind]
  rw [hC, Option.bind_some, hN, Option.bind_some]

/-! ## Examples -/

theorem apartP_separate {r : ℝ} (hr : 2.001 ≤ r) : Separate (apartP r) := by
  intro x hx y hy hxy
  rw [apartP_len (by norm_num at hr; linarith) hy hx hxy.symm, apartP_equal r x hx, apartP_equal r y hy]
  norm_num at hr ⊢
  linarith

/-- Two spheres whose near field alone gains energy. -/
example : ∃ R C, generate_grand_resistance_matrix shippedTable (apartP 2.015) (NDMat.zeros 0 0) true 2 false false 1 true
      = some (R, C) ∧ PosDef R.get 22 := by
  obtain ⟨R, C, h1, -, h2, -⟩ := C86_solvable (P := apartP 2.015) one_pos (apartP_equal _)
    (apartP_sensible (by norm_num)) (apartP_separate (by norm_num)) (k := 2) (by norm_num) one_pos (bb := true) (.inl rfl)
    (NDMat.zeros 0 0)
  exact ⟨R, C, h1, h2⟩

/-- A sphere between the four beads of two dumbbells. -/
example : ∃ R C, generate_grand_resistance_matrix shippedTable starP (NDMat.zeros 0 0) true 5 false false 3 true
      = some (R, C) ∧ PosDef R.get 23 := by
  obtain ⟨R, C, h1, -, h2, -⟩ := C86_solvable (P := starP) one_pos (fun x hx => starP_radius hx) starP_sensible
    starP_separate (k := 5) (by norm_num) (mu := 3) (by norm_num) (bb := true) (.inl rfl) (NDMat.zeros 0 0)
  exact ⟨R, C, h1, h2⟩

end SD
