import Verif.Lemmas.Positive
import Verif.Props.GrandResistance
import Verif.Props.Solve

/-!
# Dilute suspensions (C49)

The far-field mobility matrix is inverted without any check. For particles far apart this is always
possible, and every form of input leads to exactly one answer.
-/

set_option autoImplicit false

namespace SD

open Spec

/-- Every bead is far from all others: the sum over the other beads of the geometric mean of the two radii over
the distance of the centres is small. -/
def Spec.Dilute (P : PosData) : Prop :=
  ∀ x < beads P, ∑ y ∈ (Finset.range (beads P)).erase x,
    Real.sqrt (radius P x * radius P y) / len (fun i => centre P x i - centre P y i) < 1 / 3520

/-- Bead velocities of given dumbbell velocities. -/
theorem vel_surj (Ns Nd : ℕ) (v : ℕ → ℝ) :
    ∃ w, ∀ i < 11 * Ns + 6 * Nd, toDumbVel Ns Nd w i = v i := by
  refine ⟨fun i => if i < 11 * Ns then v i else if i < 11 * Ns + 3 * Nd then v i - v (i + 3 * Nd)
    else v i + v (i - 3 * Nd), fun i hi => ?_⟩
  unfold toDumbVel
  dsimp only
  by_cases h1 : i < 11 * Ns
  · simp only [h1, if_true]
  by_cases h2 : i < 11 * Ns + 3 * Nd
  · simp only [h1, h2, if_true, if_false, show ¬ i + 3 * Nd < 11 * Ns by omega,
      show ¬ i + 3 * Nd < 11 * Ns + 3 * Nd by omega, show i + 3 * Nd - 3 * Nd = i by omega]
    ring
  · simp only [h1, h2, if_true, if_false, show ¬ i - 3 * Nd < 11 * Ns by omega,
      show i - 3 * Nd < 11 * Ns + 3 * Nd by omega, show i - 3 * Nd + 3 * Nd = i by omega]
    ring

/-- Bead forces of given dumbbell forces. -/
theorem force_surj (Ns Nd : ℕ) (v : ℕ → ℝ) :
    ∃ w, ∀ i < 11 * Ns + 6 * Nd, toDumbForce Ns Nd w i = v i := by
  refine ⟨fun i => if i < 11 * Ns then v i else if i < 11 * Ns + 3 * Nd then (v i - v (i + 3 * Nd)) / 2
    else (v i + v (i - 3 * Nd)) / 2, fun i hi => ?_⟩
  unfold toDumbForce
  dsimp only
  by_cases h1 : i < 11 * Ns
  · simp only [h1, if_true]
  by_cases h2 : i < 11 * Ns + 3 * Nd
  · simp only [h1, h2, if_true, if_false, show ¬ i + 3 * Nd < 11 * Ns by omega,
      show ¬ i + 3 * Nd < 11 * Ns + 3 * Nd by omega, show i + 3 * Nd - 3 * Nd = i by omega]
    ring
  · simp only [h1, h2, if_true, if_false, show ¬ i - 3 * Nd < 11 * Ns by omega,
      show i - 3 * Nd < 11 * Ns + 3 * Nd by omega, show i - 3 * Nd + 3 * Nd = i by omega]
    ring

theorem posDef_iff {M : ℕ → ℕ → ℝ} {n : ℕ} : PosDef M n ↔ ∀ w : ℕ → ℝ, (∃ i < n, w i ≠ 0) →
    0 < ∑ i ∈ Finset.range n, w i * mulVec n M w i := by
  unfold PosDef mulVec
  simp only [Finset.mul_sum, mul_assoc]

/-- In bead coordinates. -/
theorem dilute_loop {P : PosData} (hP : Sensible P) (hD : Dilute P) {mu : ℝ} (hmu : 0 < mu) (bb : Bool)
    (v : ℕ → ℝ) (hv : ∃ i < side P, v i ≠ 0) :
    0 < ∑ i ∈ Finset.range (side P), v i * mulVec (side P) (generate_Minfinity_loop
      (NDMat.zeros (side P) (side P)) P (1 / (8 * Real.pi * mu)) mu bb).get v i := by
  classical
  set L := generate_Minfinity_loop (NDMat.zeros (side P) (side P)) P (1 / (8 * Real.pi * mu)) mu bb with hL
  have hc : 0 < 1 / (8 * Real.pi * mu) := by have := Real.pi_pos; positivity
  obtain ⟨rsurj, rlt, rinj⟩ := C48_rows P
  -- bead and component of a row
  have : Nonempty Comp := ⟨.f 0⟩
  choose! bd cp hrow hbc using rsurj
  have hbd : ∀ i < side P, bd i < beads P := fun i hi => owns_lt (owns_kind (hrow i hi))
  have hent : ∀ i < side P, ∀ j < side P, L.get i j
      = systemMob P.Ns bb (centre P) (radius P) mu (bd i) (cp i) (bd j) (cp j) := by
    intro i hi j hj
    have := C48_entry hP mu bb (hrow i hi) (hrow j hj)
    rwa [hbc i hi, hbc j hj] at this
  set W : ℕ → ℝ := fun i => wt (radius P (bd i)) (cp i) with hW
  have hWp : ∀ i < side P, 0 < W i := fun i hi => wt_pos (hP.radius_pos _ (hbd i hi)) _
  set g : ℕ → ℕ → ℝ := fun x y => if x = y then 0 else 1 / (8 * Real.pi * mu) *
    (320 * (Real.sqrt (radius P x * radius P y) / len (fun i => centre P x i - centre P y i))) with hg
  have lsym : ∀ x y, len (fun i => centre P x i - centre P y i) = len (fun i => centre P y i - centre P x i) := by
    intro x y
    unfold len
    congr 1
    exact Finset.sum_congr rfl fun i _ => by ring
  have hgs : ∀ x y, g x y = g y x := by
    intro x y
    simp only [hg, eq_comm (a := x) (b := y), mul_comm (radius P x), lsym x y]
  have hg0 : ∀ x y, 0 ≤ g x y := by
    intro x y
    simp only [hg]
    split_ifs
    · exact le_rfl
    · have : 0 ≤ len (fun i => centre P x i - centre P y i) := Real.sqrt_nonneg _
      positivity
  have key := dominated_pos (Finset.range (side P)) (fun i j => L.get i j * (W i * W j))
    (fun i j => g (bd i) (bd j)) ?_ (fun i _ j _ => hgs _ _) ?_ (fun i => v i / W i) ?_
  · refine lt_of_lt_of_eq key ?_
    refine Finset.sum_congr rfl fun i hi => ?_
    have wi := hWp i (Finset.mem_range.mp hi)
    unfold mulVec
    rw [Finset.mul_sum, Finset.mul_sum]
    refine Finset.sum_congr rfl fun j hj => ?_
    have wj := hWp j (Finset.mem_range.mp hj)
    field_simp
  · intro i hi j hj hij
    have hi' := Finset.mem_range.mp hi
    have hj' := Finset.mem_range.mp hj
    have hw := mul_pos (hWp i hi') (hWp j hj')
    rw [hent i hi' j hj']
    unfold systemMob
    by_cases hx : bd i = bd j
    · rw [if_pos hx]
      simp only [hg, if_pos hx]
      have hcne : cp i ≠ cp j := by
        intro e
        apply hij
        rw [← hbc i hi', ← hbc j hj', hx, e]
      have : selfMob mu (radius P (bd i)) (cp i) (cp j) = 0 := by
        cases h1 : cp i <;> cases h2 : cp j <;> simp only [selfMob]
        all_goals
          rw [h1, h2] at hcne
          rw [if_neg (fun e => hcne (by rw [e]))]
      rw [this]; simp
    · rw [if_neg hx]
      simp only [hg, if_neg hx]
      by_cases hbb : bb = false ∧ P.Ns ≤ bd i ∧ P.Ns ≤ bd j
      · rw [if_pos hbb]
        have := hg0 (bd i) (bd j)
        simp only [hg, if_neg hx] at this
        simpa using this
      · rw [if_neg hbb, mul_assoc, abs_mul, abs_of_pos hc, abs_mul, abs_of_pos hw]
        exact mul_le_mul_of_nonneg_left (pairMob_wt_le (hP.radius_pos _ (hbd i hi'))
          (hP.radius_pos _ (hbd j hj')) (hP.apart _ (hbd i hi') _ (hbd j hj') hx) (cp i) (cp j)) hc.le
  · intro i hi
    have hi' := Finset.mem_range.mp hi
    have hx := hbd i hi'
    have h1 : ∑ j ∈ (Finset.range (side P)).erase i, g (bd i) (bd j)
        ≤ ∑ j ∈ Finset.range (side P), g (bd i) (bd j) :=
      Finset.sum_le_sum_of_subset_of_nonneg (Finset.erase_subset _ _) fun j _ _ => hg0 _ _
    have h2 := sum_rows_le P.Ns P.Nd (fun j => g (bd i) (bd j)) (g (bd i)) (hg0 _) (by
      intro u c huc
      have hlt := rlt u c huc
      have := rinj _ _ u c (hrow _ hlt) huc (hbc _ hlt)
      show g (bd i) (bd (row P.Ns u c)) ≤ _
      rw [this.1])
    have h3 : ∑ u ∈ Finset.range (P.Ns + 2 * P.Nd), g (bd i) u
        = 1 / (8 * Real.pi * mu) * (320 * ∑ y ∈ (Finset.range (beads P)).erase (bd i),
          Real.sqrt (radius P (bd i) * radius P y)
            / len (fun k => centre P (bd i) k - centre P y k)) := by
      rw [Finset.mul_sum, Finset.mul_sum]
      have : bd i ∈ Finset.range (P.Ns + 2 * P.Nd) := Finset.mem_range.mpr hx
      rw [← Finset.add_sum_erase _ _ this]
      simp only [hg, if_true, zero_add]
      refine Finset.sum_congr rfl fun y hy => ?_
      rw [if_neg (Finset.ne_of_mem_erase hy).symm]
    have h4 := hD (bd i) hx
    have h5 : 1 / (8 * Real.pi * mu) ≤ L.get i i * (W i * W i) := by
      rw [hent i hi' i hi']
      unfold systemMob
      rw [if_pos rfl]
      exact selfMob_wt hmu (hP.radius_pos _ hx) (cp i)
    refine lt_of_lt_of_le ?_ h5
    refine lt_of_le_of_lt (h1.trans h2) ?_
    rw [h3]
    nlinarith
  · obtain ⟨i, hi, hne⟩ := hv
    exact ⟨i, Finset.mem_range.mpr hi, div_ne_zero hne (hWp i hi).ne'⟩

/-- From bead coordinates to the matrix that is returned. -/
theorem mobility_of_loop {P : PosData} {mu : ℝ} {bb : Bool}
    (h : ∀ v : ℕ → ℝ, (∃ i < side P, v i ≠ 0) →
      0 < ∑ i ∈ Finset.range (side P), v i * mulVec (side P) (generate_Minfinity_loop
        (NDMat.zeros (side P) (side P)) P (1 / (8 * Real.pi * mu)) mu bb).get v i) :
    PosDef (generate_Minfinity P mu bb).get (side P) := by
  rw [posDef_iff]
  intro v ⟨i, hi, hne⟩
  obtain ⟨φ, hφ⟩ : ∃ w, ∀ i < side P, toDumbForce P.Ns P.Nd w i = v i := force_surj P.Ns P.Nd v
  have h1 : ∑ i ∈ Finset.range (side P), v i * mulVec (side P) (generate_Minfinity P mu bb).get v i
      = ∑ i ∈ Finset.range (side P), φ i * mulVec (side P) (generate_Minfinity_loop
      (NDMat.zeros (side P) (side P)) P (1 / (8 * Real.pi * mu)) mu bb).get φ i := by
    have := C11_power P.Ns P.Nd φ (mulVec (side P) (generate_Minfinity_loop
      (NDMat.zeros (side P) (side P)) P (1 / (8 * Real.pi * mu)) mu bb).get φ)
    refine Eq.trans ?_ this
    refine Finset.sum_congr rfl fun j hj => ?_
    have hj' := Finset.mem_range.mp hj
    rw [← C11_mobility P mu bb φ hj', hφ j hj', mulVec_congr (fun k hk => (hφ k hk).symm)]
  rw [h1]
  refine h φ ?_
  by_contra hc
  push Not at hc
  apply hne
  rw [← hφ i hi]
  unfold toDumbForce
  unfold side at hi hc
  split_ifs
  · exact hc i hi
  · rw [hc i hi, hc _ (by omega)]; ring
  · rw [hc i hi, hc _ (by omega)]; ring

/-- **C49** (mobility). In a dilute suspension of spheres and dumbbells of any sizes, whatever loads act, the
far-field mobility matrix that is returned dissipates energy: it is positive definite. -/
theorem C49_mobility {P : PosData} (hP : Sensible P) (hD : Dilute P) {mu : ℝ} (hmu : 0 < mu) (bb : Bool) :
    PosDef (generate_Minfinity P mu bb).get (side P) :=
  mobility_of_loop fun v hv => dilute_loop hP hD hmu bb v hv

/-- A positive definite mobility matrix has a positive definite inverse. -/
theorem inverse_of_posDef {P : PosData} {mu : ℝ} {bb : Bool}
    (hp : PosDef (generate_Minfinity P mu bb).get (side P)) :
    ∃ C, (generate_Minfinity P mu bb).inv = some C ∧ C.rows = side P ∧ C.cols = side P ∧
      PosDef C.get (side P) := by
  have hM := posDef_iff.mp hp
  have hd := Minfinity_dims P mu bb
  have hr : (generate_Minfinity P mu bb).rows = side P := hd.1
  obtain ⟨C, hC⟩ := (inv_isSome (M := generate_Minfinity P mu bb) (hd.1.trans hd.2.symm)).mpr (by
    rw [hr]
    intro v hv i hi
    by_contra hne
    have := hM v ⟨i, hi, hne⟩
    rw [Finset.sum_eq_zero fun j hj => by rw [hv j (Finset.mem_range.mp hj), mul_zero]] at this
    exact lt_irrefl _ this)
  obtain ⟨-, e1, e2, -, -⟩ := NDMat.inv_some hC
  refine ⟨C, hC, e1.trans hr, e2.trans hr, posDef_iff.mpr fun w ⟨i, hi, hne⟩ => ?_⟩
  have hinv : ∀ j < side P, mulVec (side P) (generate_Minfinity P mu bb).get (mulVec (side P) C.get w) j = w j := by
    intro j hj
    have := (inv_mulVec hC w (i := j) (by rw [hr]; exact hj)).2
    rwa [hr] at this
  have := hM (mulVec (side P) C.get w) (by
    by_contra hc
    push Not at hc
    apply hne
    rw [← hinv i hi]
    unfold mulVec
    exact Finset.sum_eq_zero fun j hj => by
      have := hc j (Finset.mem_range.mp hj)
      unfold mulVec at this
      rw [this, mul_zero])
  refine lt_of_lt_of_eq this ?_
  refine Finset.sum_congr rfl fun j hj => ?_
  rw [hinv j (Finset.mem_range.mp hj), mul_comm]

/-- **C49** (inverse). So the inversion succeeds, and the far-field resistance is positive definite. -/
theorem C49_inverse {P : PosData} (hP : Sensible P) (hD : Dilute P) {mu : ℝ} (hmu : 0 < mu) (bb : Bool) :
    ∃ C, (generate_Minfinity P mu bb).inv = some C ∧ C.rows = side P ∧ C.cols = side P ∧
      PosDef C.get (side P) := inverse_of_posDef (C49_mobility hP hD hmu bb)

/-- **C49** (drag). With the drag approximation the far-field resistance is positive definite for every
configuration. -/
theorem C49_drag {T : ScalarTable} {P : PosData} {last R C : NDMat} {reg only bb : Bool} {k mu : ℝ}
    (h : generate_grand_resistance_matrix T P last reg k true only mu bb = some (R, C)) (hmu : 0 < mu)
    (hs : ∀ i < P.Ns, 0 < P.sphereSize i) (hb : ∀ i < P.Nd, 0 < P.dumbSize i) :
    PosDef C.get (side P) := by
  obtain ⟨-, -, h0, -, hp⟩ := C25_drag h
  have hp := hp hmu hs hb
  rw [posDef_iff]
  intro w ⟨i, hi, hne⟩
  have e : ∀ j < side P, mulVec (side P) C.get w j = C.get j j * w j := by
    intro j hj
    unfold mulVec
    rw [← Finset.add_sum_erase _ _ (Finset.mem_range.mpr hj), Finset.sum_eq_zero, add_zero]
    intro m hm
    rw [h0 j m (Finset.ne_of_mem_erase hm).symm, zero_mul]
  refine Finset.sum_pos' (fun j hj => ?_) ⟨i, Finset.mem_range.mpr hi, ?_⟩
  · have hj' := Finset.mem_range.mp hj
    rw [e j hj']
    nlinarith [hp j hj', mul_self_nonneg (w j), mul_nonneg (hp j hj').le (mul_self_nonneg (w j))]
  · rw [e i hi]
    have := mul_pos (hp i hi) (mul_self_pos.mpr hne)
    nlinarith

/-- The near-field matrix of beads that have no neighbours does nothing. -/
theorem near_zero {T : ScalarTable} {P : PosData} {k : ℝ} (hP : Sensible P) (hk : 0 < k)
    (hT : Tabulated T.lam P k) (hfar : ∀ x < beads P, ∀ y < beads P, x ≠ y →
      openLink k (centre P) (radius P) x y = none) (mu : ℝ) (bb : Bool) :
    ∃ N, generate_R2Bexact T P k mu bb = some N ∧ N.rows = side P ∧ N.cols = side P ∧
      (∀ i j, N.get i j = N.get j i) ∧
      ∀ (v : ℕ → ℝ) (i : ℕ), i < side P → mulVec (side P) N.get v i = 0 := by
  obtain ⟨M, h1, h2, h3, h4, h5⟩ := near_entry hP hk hT bb
  obtain ⟨R, e1, e2, e3, e4, e5⟩ := R2B_mulVec (mu := mu) h1 ⟨h2, h3⟩
  refine ⟨R, e1, e2, e3, e4 h4, fun v i hi => ?_⟩
  obtain ⟨w, hw⟩ : ∃ w, ∀ i < side P, toDumbVel P.Ns P.Nd w i = v i := vel_surj P.Ns P.Nd v
  rw [mulVec_congr (fun j hj => (hw j hj).symm), e5 w i hi]
  have hz : ∀ j < side P, mu * mulVec (side P) M.get w j = 0 := by
    intro j hj
    obtain ⟨x, c, hx, rfl⟩ := (C48_rows P).1 j hj
    unfold mulVec
    rw [Finset.sum_eq_zero, mul_zero]
    intro m hm
    obtain ⟨y, d, hy, rfl⟩ := (C48_rows P).1 m (Finset.mem_range.mp hm)
    rw [h5 x c y d hx hy]
    have hxb : x < beads P := owns_lt (owns_kind hx)
    have hyb : y < beads P := owns_lt (owns_kind hy)
    unfold systemNear
    by_cases hxy : x = y
    · rw [if_pos hxy, Finset.sum_eq_zero, zero_mul]
      intro z hz
      by_cases hzx : z = x
      · rw [if_pos hzx]
      · rw [if_neg hzx, hfar x hxb z (Finset.mem_range.mp hz) (Ne.symm hzx)]
    · rw [if_neg hxy, hfar x hxb y hyb hxy]
      simp
  rw [toDumbForce_congr (g := fun _ => 0) hz hi]
  unfold toDumbForce
  simp

/-- With a positive definite mobility and no near-field neighbours everything is solved. -/
theorem solvable_of_posDef {T : ScalarTable} {P : PosData} {k : ℝ} (hP : Sensible P) (hk : 0 < k)
    (hT : Tabulated T.lam P k) {mu : ℝ} {bb : Bool} (hM : PosDef (generate_Minfinity P mu bb).get (side P)) (only : Bool)
    (hfar : only = false → ∀ x < beads P, ∀ y < beads P, x ≠ y →
      2 * k ≤ len (fun i => centre P y i - centre P x i) / ((radius P x + radius P y) / 2))
    (last : NDMat) :
    ∃ R C, generate_grand_resistance_matrix T P last true k false only mu bb = some (R, C) ∧
      Symm R.get (side P) ∧ PosDef R.get (side P) ∧
      ∀ {form : InputForm} {inp : Inputs}, formAllowed form P.Ns → Sized P.Ns P.Nd inp →
        Complete form P.Ns P.Nd inp → ∃ out, solveForm form false P.Ns P.Nd R inp = some out := by
  obtain ⟨C, hC, hr, hc, hp⟩ := inverse_of_posDef hM
  have hCs := inv_symm hC (Minfinity_symm P mu bb)
  have fin : ∀ R : NDMat, R.rows = side P → R.cols = side P → Symm R.get (side P) →
      PosDef R.get (side P) → ∀ {form : InputForm} {inp : Inputs}, formAllowed form P.Ns →
      Sized P.Ns P.Nd inp → Complete form P.Ns P.Nd inp →
      ∃ out, solveForm form false P.Ns P.Nd R inp = some out :=
    fun R h1 h2 h3 h4 _ _ hf hs hcm => C09_spd_succeeds hf hs h1 h2 h3 h4 hcm
  cases only
  · obtain ⟨N, hN, n1, n2, n3, n4⟩ := near_zero hP hk hT (fun x hx y hy hxy => by
      unfold openLink
      dsimp only
      rw [if_neg (not_lt.mpr (hfar rfl x hx y hy hxy))]) mu bb
    have hadd : ∀ (w : ℕ → ℝ) (i : ℕ), mulVec (side P) (N.add C).get w i
        = mulVec (side P) N.get w i + mulVec (side P) C.get w i := by
      intro w i
      unfold mulVec
      rw [← Finset.sum_add_distrib]
      exact Finset.sum_congr rfl fun j _ => by simp only [NDMat.add]; ring
    have hsy : Symm (N.add C).get (side P) := fun i _ j _ => by
      show N.get i j + C.get i j = N.get j i + C.get j i
      rw [n3 i j, hCs i j]
    have hpd : PosDef (N.add C).get (side P) := by
      rw [posDef_iff]
      intro w hw
      refine lt_of_lt_of_eq (posDef_iff.mp hp w hw) ?_
      refine Finset.sum_congr rfl fun i hi => ?_
      rw [hadd, n4 w i (Finset.mem_range.mp hi), zero_add]
    refine ⟨N.add C, C, ?_, hsy, hpd, fin (N.add C) n1 n2 hsy hpd⟩
    unfold generate_grand_resistance_matrix
    simp only [if_true, Option.bind_eq_bind]
    rw [hC, Option.bind_some, hN, Option.bind_some]
  · refine ⟨C, C, ?_, fun i _ j _ => hCs i j, hp, fin C hr hc (fun i _ j _ => hCs i j) hp⟩
    unfold generate_grand_resistance_matrix
    simp [hC]

/-- **C49** (solvable). For a dilute suspension whose particles have no near-field neighbours (or with the near
field switched off) the resistance matrix exists, is symmetric and positive definite, and every complete
input of every allowed form is solved: no inversion on the way meets a singular matrix. -/
theorem C49_solvable {T : ScalarTable} {P : PosData} {k : ℝ} (hP : Sensible P) (hD : Dilute P) (hk : 0 < k)
    (hT : Tabulated T.lam P k) {mu : ℝ} (hmu : 0 < mu) (bb only : Bool)
    (hfar : only = false → ∀ x < beads P, ∀ y < beads P, x ≠ y →
      2 * k ≤ len (fun i => centre P y i - centre P x i) / ((radius P x + radius P y) / 2))
    (last : NDMat) :
    ∃ R C, generate_grand_resistance_matrix T P last true k false only mu bb = some (R, C) ∧
      Symm R.get (side P) ∧ PosDef R.get (side P) ∧
      ∀ {form : InputForm} {inp : Inputs}, formAllowed form P.Ns → Sized P.Ns P.Nd inp →
        Complete form P.Ns P.Nd inp → ∃ out, solveForm form false P.Ns P.Nd R inp = some out :=
  solvable_of_posDef hP hk hT (C49_mobility hP hD hmu bb) only hfar last

/-! ## Examples -/

/-- Two spheres and a long dumbbell, far apart. -/
noncomputable def farP : PosData where
  Ns := 2
  Nd := 1
  sphereSize := fun i => if i = 0 then 1 else 2
  spherePos := fun i => if i = 0 then ![0, 0, 0] else ![400000, 0, 0]
  dumbSize := fun _ => 1 / 2
  dumbPos := fun _ => ![0, 500000, 0]
  dumbDx := fun _ => ![0, 0, 200000]

theorem farP_dist {x y : ℕ} (hx : x < beads farP) (hy : y < beads farP) (hxy : x ≠ y) :
    100000 ≤ len fun i => centre farP x i - centre farP y i := by
  have hx' : x < 4 := hx
  have hy' : y < 4 := hy
  have key : ∀ r : Fin 3 → ℝ, (∃ i, 100000 ≤ |r i|) → 100000 ≤ len r := by
    rintro r ⟨i, hi⟩
    exact hi.trans (abs_comp_le r i)
  apply key
  interval_cases x <;> interval_cases y
  all_goals first
    | exact absurd rfl hxy
    | (refine ⟨0, ?_⟩; simp [centre, farP]; norm_num [abs_of_pos, abs_of_neg]; done)
    | (refine ⟨1, ?_⟩; simp [centre, farP]; norm_num [abs_of_pos, abs_of_neg]; done)
    | (refine ⟨2, ?_⟩; simp [centre, farP]; norm_num [abs_of_pos, abs_of_neg]; done)

theorem farP_radius {x : ℕ} (hx : x < beads farP) : 1 / 2 ≤ radius farP x ∧ radius farP x ≤ 2 := by
  have hx' : x < 4 := hx
  interval_cases x <;> norm_num [radius, farP]

theorem farP_sensible : Sensible farP := by
  refine ⟨fun x hx => by linarith [(farP_radius hx).1], fun x hx y hy hxy => ?_⟩
  exact lt_of_lt_of_le (by norm_num) (farP_dist hx hy hxy)

theorem farP_dilute : Dilute farP := by
  intro x hx
  have hterm : ∀ y ∈ (Finset.range (beads farP)).erase x, Real.sqrt (radius farP x * radius farP y)
      / len (fun i => centre farP x i - centre farP y i) ≤ 2 / 100000 := by
    intro y hy
    have hy' := Finset.mem_range.mp (Finset.mem_of_mem_erase hy)
    have h1 := farP_radius hx
    have h2 := farP_radius hy'
    have h3 := farP_dist hx hy' (Finset.ne_of_mem_erase hy).symm
    have h4 : Real.sqrt (radius farP x * radius farP y) ≤ 2 := by
      refine Real.sqrt_le_iff.mpr ⟨by norm_num, by nlinarith⟩
    gcongr
  have := Finset.sum_le_card_nsmul _ _ _ hterm
  rw [Finset.card_erase_of_mem (Finset.mem_range.mpr hx), Finset.card_range, nsmul_eq_mul] at this
  refine lt_of_le_of_lt this ?_
  rw [show beads farP = 4 from rfl]
  norm_num

theorem farP_tabulated (k : ℝ) : Tabulated demoT.lam farP k := by
  intro x hx y hy _
  have hx' : x < 4 := hx
  have hy' : y < 4 := hy
  have h : radius farP y / radius farP x ∈ demoT.lam := by
    interval_cases x <;> interval_cases y <;> norm_num [demoT, radius, farP]
  exact ⟨_, h, by simp; positivity⟩

example : ∃ R C, generate_grand_resistance_matrix demoT farP (NDMat.zeros 0 0) true 5 true true 3 true
      = some (R, C) ∧ PosDef C.get (side farP) :=
  ⟨_, _, rfl, C49_drag (T := demoT) (P := farP) (last := NDMat.zeros 0 0) (reg := true) (only := true)
    (bb := true) (k := 5) (mu := 3) rfl (by norm_num)
    (fun i _ => by by_cases h : i = 0 <;> simp [farP, h]) (fun i _ => by norm_num [farP])⟩

/-- Forces on both spheres and on the dumbbell, in a shear. -/
example : ∃ R C, generate_grand_resistance_matrix demoT farP (NDMat.zeros 0 0) true 5 false false 3 true
      = some (R, C) ∧ ∃ out, solveForm .fte false 2 1 R demoFTE = some out := by
  obtain ⟨R, C, h1, -, -, h2⟩ := C49_solvable (T := demoT) (k := 5) farP_sensible farP_dilute (by norm_num)
    (farP_tabulated 5) (mu := 3) (by norm_num) true false (fun _ x hx y hy hxy => by
      have h1 := farP_radius hx
      have h2 := farP_radius hy
      have h3 := farP_dist hy hx hxy.symm
      rw [le_div_iff₀ (by linarith)]
      nlinarith) (NDMat.zeros 0 0)
  exact ⟨R, C, h1, h2 ⟨by decide, by decide⟩ demoFTE_sized demoFTE_complete.1⟩

end SD
