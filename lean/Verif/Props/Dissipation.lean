import Verif.Lemmas.Overlapping
import Verif.Props.Dilute
import Verif.Spec.Separate

/-!
# The far-field mobility dissipates (C59)

The far-field mobility matrix is inverted without any check. For beads that do not overlap it is positive
definite, however many there are and however close they come.
-/

set_option autoImplicit false

namespace SD

open Spec

/-- The form in bead coordinates, for displacements that belong to some arrangement `Y` of the beads. -/
theorem arranged_loop {P : PosData} (hP : Sensible P) {mu : ℝ} (hmu : 0 < mu) {bb : Bool}
    (hbb : bb = true ∨ P.Nd = 0) (Y : ℕ → Fin 3 → ℝ)
    (hY : ∀ x < beads P, ∀ y < beads P, x ≠ y →
      sep (fun i => centre P x i - centre P y i) (radius P x) (radius P y) = fun i => Y x i - Y y i)
    (v : ℕ → ℝ) (hv : ∃ i < side P, v i ≠ 0) :
    0 < ∑ i ∈ Finset.range (side P), v i * mulVec (side P) (generate_Minfinity_loop
      (NDMat.zeros (side P) (side P)) P (1 / (8 * Real.pi * mu)) mu bb).get v i := by
  classical
  set L := generate_Minfinity_loop (NDMat.zeros (side P) (side P)) P (1 / (8 * Real.pi * mu)) mu bb with hL
  have hpi := Real.pi_pos
  obtain ⟨rsurj, rlt, rinj⟩ := C48_rows P
  have : Nonempty Comp := ⟨.f 0⟩
  choose! bd cp hrow hbc using rsurj
  have hbd : ∀ i < side P, bd i < beads P := fun i hi => owns_lt (owns_kind (hrow i hi))
  have hlen : ∀ x < beads P, ∀ y < beads P, x ≠ y → radius P x + radius P y ≤ len (fun i => Y x i - Y y i) := by
    intro x hx y hy hxy
    have ha := hP.radius_pos x hx
    have hb := hP.radius_pos y hy
    rw [← hY x hx y hy hxy, sep_len ha hb (lt_trans (by positivity) (hP.apart x hx y hy hxy))]
    refine le_trans ?_ (le_max_right _ _)
    norm_num
    linarith
  have hent : ∀ i < side P, ∀ j < side P, L.get i j = 1 / (8 * Real.pi ^ 2 * mu) *
      Sph.covl (radius P (bd i)) (radius P (bd j)) (cp i) (cp j) (fun m => Y (bd i) m - Y (bd j) m) := by
    intro i hi j hj
    have h := C48_entry hP mu bb (hrow i hi) (hrow j hj)
    rw [hbc i hi, hbc j hj] at h
    rw [hL, h]
    have ha := hP.radius_pos _ (hbd i hi)
    have hb := hP.radius_pos _ (hbd j hj)
    unfold systemMob
    by_cases hx : bd i = bd j
    · rw [if_pos hx, ← hx]
      have e0 : (fun m => Y (bd i) m - Y (bd i) m) = 0 := by funext m; simp
      rw [e0, ← Sph.self_overlap hmu ha]
      field_simp
    · have hoff : ¬ (bb = false ∧ P.Ns ≤ bd i ∧ P.Ns ≤ bd j) := by
        rintro ⟨h1, h2, h3⟩
        rcases hbb with h | h
        · rw [h] at h1; exact Bool.noConfusion h1
        · have := hbd i hi
          unfold beads at this
          omega
      rw [if_neg hx, if_neg hoff, hY _ (hbd i hi) _ (hbd j hj) hx,
        ← Sph.pair_overlap ha hb (hlen _ (hbd i hi) _ (hbd j hj) hx)]
      field_simp
  have key := Sph.qf_pos (N := side P) bd (radius P) Y cp v (fun i hi => hP.radius_pos _ (hbd i hi))
    (fun i hi j hj hne e => by
      have h := hlen _ (hbd i hi) _ (hbd j hj) hne
      rw [e] at h
      simp only [sub_self] at h
      have h0 : len (fun _ : Fin 3 => (0 : ℝ)) = 0 := len_zero
      rw [h0] at h
      linarith [hP.radius_pos _ (hbd i hi), hP.radius_pos _ (hbd j hj)])
    (fun i hi j hj h1 h2 => by rw [← hbc i hi, ← hbc j hj, h1, h2]) hv
  have e : ∑ i ∈ Finset.range (side P), v i * mulVec (side P) L.get v i
      = 1 / (8 * Real.pi ^ 2 * mu) * Sph.qf (side P) (fun i => radius P (bd i)) (fun i => Y (bd i)) cp v := by
    unfold Sph.qf mulVec
    rw [Finset.mul_sum]
    refine Finset.sum_congr rfl fun i hi => ?_
    rw [Finset.mul_sum, Finset.mul_sum]
    refine Finset.sum_congr rfl fun j hj => ?_
    rw [hent i (Finset.mem_range.mp hi) j (Finset.mem_range.mp hj)]
    ring
  rw [e]
  positivity

/-- **C59** (mobility). For any number of spheres and dumbbells of any sizes, none closer than 2.001 average radii,
the far-field mobility matrix that is returned is positive definite. (The dumbbell beads must see each other.) -/
theorem C59_mobility {P : PosData} (hP : Sensible P) (hS : Separate P) {mu : ℝ} (hmu : 0 < mu) {bb : Bool}
    (hbb : bb = true ∨ P.Nd = 0) : PosDef (generate_Minfinity P mu bb).get (side P) :=
  mobility_of_loop fun v hv => arranged_loop hP hmu hbb (centre P) (fun x hx y hy hxy => by
    unfold sep
    rw [if_neg (not_lt.mpr (hS x hx y hy hxy))]) v hv

/-- **C59** (two beads). Two spheres, or one dumbbell, may even overlap. -/
theorem C59_two_beads {P : PosData} (hP : Sensible P) (h2 : beads P ≤ 2) {mu : ℝ} (hmu : 0 < mu) {bb : Bool}
    (hbb : bb = true ∨ P.Nd = 0) : PosDef (generate_Minfinity P mu bb).get (side P) := by
  set d := sep (fun i => centre P 1 i - centre P 0 i) (radius P 1) (radius P 0) with hd
  refine mobility_of_loop fun v hv => arranged_loop hP hmu hbb (fun x => if x = 0 then 0 else d) ?_ v hv
  intro x hx y hy hxy
  have hx' : x = 0 ∧ y = 1 ∨ x = 1 ∧ y = 0 := by omega
  rcases hx' with ⟨rfl, rfl⟩ | ⟨rfl, rfl⟩
  · have hl : len (fun i => centre P 1 i - centre P 0 i) = len (fun i => centre P 0 i - centre P 1 i) := by
      unfold len
      congr 1
      exact Finset.sum_congr rfl fun i _ => by ring
    funext i
    simp only [if_true, one_ne_zero, if_false, Pi.zero_apply, hd]
    unfold sep
    rw [hl, add_comm (radius P 1)]
    split_ifs
    · ring
    · ring
  · funext i
    simp [hd]

/-- **C59** (inverse). So the inversion succeeds, and the far-field resistance is positive definite. -/
theorem C59_inverse {P : PosData} (hP : Sensible P) (hS : Separate P) {mu : ℝ} (hmu : 0 < mu) {bb : Bool}
    (hbb : bb = true ∨ P.Nd = 0) :
    ∃ C, (generate_Minfinity P mu bb).inv = some C ∧ C.rows = side P ∧ C.cols = side P ∧
      PosDef C.get (side P) := inverse_of_posDef (C59_mobility hP hS hmu hbb)

/-- **C59** (solvable). With the near field switched off (or no near-field neighbours), every complete input of
every allowed form is solved. -/
theorem C59_solvable {T : ScalarTable} {P : PosData} {k : ℝ} (hP : Sensible P) (hS : Separate P) (hk : 0 < k)
    (hT : Tabulated T.lam P k) {mu : ℝ} (hmu : 0 < mu) {bb : Bool} (hbb : bb = true ∨ P.Nd = 0) (only : Bool)
    (hfar : only = false → ∀ x < beads P, ∀ y < beads P, x ≠ y →
      2 * k ≤ len (fun i => centre P y i - centre P x i) / ((radius P x + radius P y) / 2))
    (last : NDMat) :
    ∃ R C, generate_grand_resistance_matrix T P last true k false only mu bb = some (R, C) ∧
      Symm R.get (side P) ∧ PosDef R.get (side P) ∧
      ∀ {form : InputForm} {inp : Inputs}, formAllowed form P.Ns → Sized P.Ns P.Nd inp →
        Complete form P.Ns P.Nd inp → ∃ out, solveForm form false P.Ns P.Nd R inp = some out :=
  solvable_of_posDef hP hk hT (C59_mobility hP hS hmu hbb) only hfar last

/-! ## A sphere between four beads -/

/-- A sphere and two dumbbells across it, all beads of radius one, each bead a tenth of a radius from the sphere. -/
noncomputable def starP : PosData where
  Ns := 1
  Nd := 2
  sphereSize := fun _ => 1
  spherePos := fun _ => 0
  dumbSize := fun _ => 1
  dumbPos := fun _ => 0
  dumbDx := fun i => if i = 0 then ![0, 0, 21 / 5] else ![21 / 5, 0, 0]

theorem starP_radius {x : ℕ} (hx : x < beads starP) : radius starP x = 1 := by
  have hx' : x < 5 := hx
  interval_cases x <;> simp [radius, starP]

theorem starP_len {x y : ℕ} (hx : x < beads starP) (hy : y < beads starP) (hxy : x ≠ y) :
    21 / 10 ≤ len fun i => centre starP x i - centre starP y i := by
  have hx' : x < 5 := hx
  have hy' : y < 5 := hy
  unfold len
  apply Real.le_sqrt_of_sq_le
  rw [Fin.sum_univ_three]
  interval_cases x <;> interval_cases y <;> first
    | exact absurd rfl hxy
    | (simp [centre, starP]; norm_num)

theorem starP_separate : Separate starP := by
  intro x hx y hy hxy
  rw [starP_radius hx, starP_radius hy]
  exact le_trans (by norm_num) (starP_len hx hy hxy)

theorem starP_sensible : Sensible starP :=
  ⟨fun x hx => by rw [starP_radius hx]; norm_num, fun x hx y hy hxy =>
    lt_of_lt_of_le (by norm_num) (starP_len hx hy hxy)⟩

/-- The beads see each other: all is well. -/
example : PosDef (generate_Minfinity starP 3 true).get 23 := C59_mobility starP_sensible starP_separate (by norm_num) (.inl rfl)

/-- Two overlapping spheres of different sizes. -/
noncomputable def lensP : PosData where
  Ns := 2
  Nd := 0
  sphereSize := fun i => if i = 0 then 1 else 2
  spherePos := fun i => if i = 0 then 0 else ![1, 1, 0]
  dumbSize := fun _ => 1
  dumbPos := fun _ => 0
  dumbDx := fun _ => 0

example : PosDef (generate_Minfinity lensP 1 false).get 22 := by
  refine C59_two_beads (P := lensP) ⟨fun x hx => ?_, fun x hx y hy hxy => ?_⟩ (by simp [beads, lensP]) one_pos (.inr rfl)
  · have : x < 2 := hx
    interval_cases x <;> simp [radius, lensP]
  · have hx' : x < 2 := hx
    have hy' : y < 2 := hy
    unfold len
    apply Real.lt_sqrt_of_sq_lt
    rw [Fin.sum_univ_three]
    interval_cases x <;> interval_cases y <;> first
      | exact absurd rfl hxy
      | (simp [centre, lensP]; norm_num)

example : ∃ R C, generate_grand_resistance_matrix demoT starP (NDMat.zeros 0 0) true 5 false true 3 true
      = some (R, C) ∧ PosDef R.get 23 := by
  have hT : Tabulated demoT.lam starP 5 := by
    intro x hx y hy _
    rw [starP_radius hx, starP_radius hy]
    exact ⟨1, by norm_num [demoT], by norm_num⟩
  obtain ⟨R, C, h1, -, h2, -⟩ := C59_solvable (T := demoT) (k := 5) starP_sensible starP_separate (by norm_num)
    hT (mu := 3) (by norm_num) (.inl rfl) true (fun h => Bool.noConfusion h) (NDMat.zeros 0 0)
  exact ⟨R, C, h1, h2⟩

/-- Force-force mobility along an axis of two equal spheres. -/
theorem pair_ff {a : ℝ} {r : Fin 3 → ℝ} (h : r ≠ 0) (i : Fin 3) : pairMob a a (.f i) (.f i) r
    = (1 / len r + (a ^ 2 + a ^ 2) / 6 * (2 / len r ^ 3))
      + (1 / len r ^ 3 - (a ^ 2 + a ^ 2) / 6 * (6 / len r ^ 5)) * r i * r i := by
  have e : pairMob a a (.f i) (.f i) r = response a a (.force i) (.force i) r := rfl
  rw [e, ← form2_unit (fun i j => response a a (.force i) (.force j) r) i i, form_FF a a h, Sph.dt_dlt, Sph.dt_dlt]
  simp [dlt]

/-- The forces of the counterexample: along the third axis, the sphere one way and the beads the other. -/
noncomputable def starF (i : ℕ) : ℝ :=
  if i = 2 then 1 else if i = 13 ∨ i = 19 then -(3 / 5) else if i = 16 ∨ i = 22 then -(2 / 5) else 0

/-- The form for any matrix with the couplings of the star. -/
theorem star_sum (M : ℕ → ℕ → ℝ) {c x y : ℝ}
    (e00 : M 2 2 = c * (4 / 3)) (e01 : M 2 13 = c * x) (e02 : M 2 16 = c * y) (e03 : M 2 19 = c * x) (e04 : M 2 22 = c * y)
    (e10 : M 13 2 = c * x) (e11 : M 13 13 = c * (4 / 3)) (e12 : M 13 16 = 0) (e13 : M 13 19 = 0) (e14 : M 13 22 = 0)
    (e20 : M 16 2 = c * y) (e21 : M 16 13 = 0) (e22 : M 16 16 = c * (4 / 3)) (e23 : M 16 19 = 0) (e24 : M 16 22 = 0)
    (e30 : M 19 2 = c * x) (e31 : M 19 13 = 0) (e32 : M 19 16 = 0) (e33 : M 19 19 = c * (4 / 3)) (e34 : M 19 22 = 0)
    (e40 : M 22 2 = c * y) (e41 : M 22 13 = 0) (e42 : M 22 16 = 0) (e43 : M 22 19 = 0) (e44 : M 22 22 = c * (4 / 3)) :
    ∑ i ∈ Finset.range 23, starF i * mulVec 23 M starF i = c * (4 / 3 * (51 / 25) - 12 / 5 * x - 8 / 5 * y) := by
  have hm : ∀ i, mulVec 23 M starF i = M i 2 - 3 / 5 * (M i 13 + M i 19) - 2 / 5 * (M i 16 + M i 22) := by
    intro i
    unfold mulVec
    simp only [Finset.sum_range_succ, Finset.sum_range_zero, starF]
    norm_num
    ring
  simp only [hm, Finset.sum_range_succ, Finset.sum_range_zero, starF]
  norm_num
  rw [e00, e01, e02, e03, e04, e10, e11, e12, e13, e14, e20, e21, e22, e23, e24, e30, e31, e32, e33, e34, e40, e41, e42, e43, e44]
  ring

theorem star_self {mu : ℝ} (hmu : 0 < mu) {u : ℕ} (hu : u < 5) :
    systemMob 1 false (centre starP) (radius starP) mu u (.f 2) u (.f 2) = 1 / (8 * Real.pi * mu) * (4 / 3) := by
  have hpi := Real.pi_pos
  unfold systemMob
  rw [if_pos rfl, starP_radius hu]
  simp only [selfMob, if_true]
  field_simp
  norm_num

theorem star_zero (mu : ℝ) {u w : ℕ} (h1 : 1 ≤ u) (h2 : 1 ≤ w) (h3 : u ≠ w) :
    systemMob 1 false (centre starP) (radius starP) mu u (.f 2) w (.f 2) = 0 := by
  unfold systemMob
  rw [if_neg h3, if_pos ⟨rfl, h1, h2⟩]

theorem star_pair (mu : ℝ) {u w : ℕ} (hu : u < 5) (hw : w < 5) (huw : u ≠ w) (h0 : u = 0 ∨ w = 0)
    (hlen : len (fun i => centre starP u i - centre starP w i) = 21 / 10) :
    systemMob 1 false (centre starP) (radius starP) mu u (.f 2) w (.f 2) = 1 / (8 * Real.pi * mu) *
      ((10 / 21 + 2000 / 27783) + (1000 / 9261 - 200000 / 4084101) * (centre starP u 2 - centre starP w 2) ^ 2) := by
  have hs : sep (fun i => centre starP u i - centre starP w i) (radius starP u) (radius starP w)
      = fun i => centre starP u i - centre starP w i := by
    unfold sep
    rw [if_neg]
    rw [hlen, starP_radius hu, starP_radius hw]
    norm_num
  have hne : (fun i => centre starP u i - centre starP w i) ≠ 0 := by
    intro e
    rw [e, len_zero] at hlen
    norm_num at hlen
  unfold systemMob
  rw [if_neg huw, if_neg (by rintro ⟨-, h1, h2⟩; omega), hs, starP_radius hu, starP_radius hw, pair_ff hne, hlen]
  congr 1
  norm_num
  ring

theorem star_len {u : ℕ} (hu : u < 5) (h1 : 1 ≤ u) : len (fun i => centre starP u i - centre starP 0 i) = 21 / 10 ∧
    len (fun i => centre starP 0 i - centre starP u i) = 21 / 10 := by
  unfold len
  refine ⟨?_, ?_⟩ <;>
  · rw [Real.sqrt_eq_iff_mul_self_eq_of_pos (by norm_num), Fin.sum_univ_three]
    interval_cases u <;> simp [centre, starP] <;> norm_num

theorem star_height : centre starP 0 2 = 0 ∧ centre starP 1 2 = -(21 / 10) ∧ centre starP 2 2 = 0 ∧
    centre starP 3 2 = 21 / 10 ∧ centre starP 4 2 = 0 := by
  refine ⟨?_, ?_, ?_, ?_, ?_⟩ <;> simp [centre, starP] <;> norm_num

/-- Couplings between the sphere and the beads. -/
theorem star_coupling (mu : ℝ) {u : ℕ} (hu : u < 5) (h1 : 1 ≤ u) :
    systemMob 1 false (centre starP) (radius starP) mu 0 (.f 2) u (.f 2) = 1 / (8 * Real.pi * mu) *
      (if u % 2 = 1 then 10 / 21 + 2000 / 27783 + (1000 / 9261 - 200000 / 4084101) * (21 / 10) ^ 2 else 10 / 21 + 2000 / 27783) ∧
    systemMob 1 false (centre starP) (radius starP) mu u (.f 2) 0 (.f 2) = 1 / (8 * Real.pi * mu) *
      (if u % 2 = 1 then 10 / 21 + 2000 / 27783 + (1000 / 9261 - 200000 / 4084101) * (21 / 10) ^ 2 else 10 / 21 + 2000 / 27783) := by
  obtain ⟨z0, z1, z2, z3, z4⟩ := star_height
  rw [star_pair mu (by norm_num) hu (by omega) (.inl rfl) (star_len hu h1).2,
    star_pair mu hu (by norm_num) (by omega) (.inr rfl) (star_len hu h1).1]
  interval_cases u <;> simp only [z0, z1, z2, z3, z4] <;> norm_num

/-- **C59** (switch). With the interaction of dumbbell beads switched off the matrix need not dissipate: for a sphere
between the beads of two dumbbells, none overlapping, there are forces that gain energy. -/
theorem C59_switch {mu : ℝ} (hmu : 0 < mu) : ¬ PosDef (generate_Minfinity starP mu false).get (side starP) := by
  intro hpos
  have hpi := Real.pi_pos
  have hside : side starP = 23 := rfl
  have h2 := posDef_iff.mp hpos (toDumbForce 1 2 starF) ⟨2, by rw [hside]; norm_num, by
    simp [toDumbForce, starF]⟩
  have h1 : ∑ i ∈ Finset.range (side starP), toDumbForce 1 2 starF i
        * mulVec (side starP) (generate_Minfinity starP mu false).get (toDumbForce 1 2 starF) i
      = ∑ i ∈ Finset.range (side starP), starF i * mulVec (side starP) (generate_Minfinity_loop
        (NDMat.zeros (side starP) (side starP)) starP (1 / (8 * Real.pi * mu)) mu false).get starF i := by
    refine Eq.trans ?_ (C11_power 1 2 starF (mulVec (side starP) (generate_Minfinity_loop
        (NDMat.zeros (side starP) (side starP)) starP (1 / (8 * Real.pi * mu)) mu false).get starF))
    refine Finset.sum_congr rfl fun j hj => ?_
    exact congrArg _ (C11_mobility starP mu false starF (Finset.mem_range.mp hj))
  rw [h1] at h2
  have hent : ∀ u < 5, ∀ w < 5, (generate_Minfinity_loop
      (NDMat.zeros (side starP) (side starP)) starP (1 / (8 * Real.pi * mu)) mu false).get (row 1 u (.f 2)) (row 1 w (.f 2))
      = systemMob 1 false (centre starP) (radius starP) mu u (.f 2) w (.f 2) := fun u hu w hw =>
    C48_entry starP_sensible mu false (x := u) (y := w) (c1 := .f 2) (c2 := .f 2) hu hw
  generalize (generate_Minfinity_loop
        (NDMat.zeros (side starP) (side starP)) starP (1 / (8 * Real.pi * mu)) mu false).get = M at h2 hent
  have hs : ∀ u (hu : u < 5), M (row 1 u (.f 2)) (row 1 u (.f 2)) = 1 / (8 * Real.pi * mu) * (4 / 3) :=
    fun u hu => (hent u hu u hu).trans (star_self hmu hu)
  have hz : ∀ u (hu : u < 5) w (hw : w < 5), 1 ≤ u → 1 ≤ w → u ≠ w → M (row 1 u (.f 2)) (row 1 w (.f 2)) = 0 :=
    fun u hu w hw h1 h2 h3 => (hent u hu w hw).trans (star_zero mu h1 h2 h3)
  have hl := fun u (hu : u < 5) (h1 : 1 ≤ u) => (hent 0 (by norm_num) u hu).trans (star_coupling mu hu h1).1
  have hr := fun u (hu : u < 5) (h1 : 1 ≤ u) => (hent u hu 0 (by norm_num)).trans (star_coupling mu hu h1).2
  have key := star_sum M (c := 1 / (8 * Real.pi * mu))
    (x := 10 / 21 + 2000 / 27783 + (1000 / 9261 - 200000 / 4084101) * (21 / 10) ^ 2) (y := 10 / 21 + 2000 / 27783)
    (hs 0 (by norm_num)) (hl 1 (by norm_num) (by norm_num)) (hl 2 (by norm_num) (by norm_num)) (hl 3 (by norm_num) (by norm_num)) (hl 4 (by norm_num) (by norm_num))
    (hr 1 (by norm_num) (by norm_num)) (hs 1 (by norm_num)) (hz 1 (by norm_num) 2 (by norm_num) (by norm_num) (by norm_num) (by norm_num)) (hz 1 (by norm_num) 3 (by norm_num) (by norm_num) (by norm_num) (by norm_num)) (hz 1 (by norm_num) 4 (by norm_num) (by norm_num) (by norm_num) (by norm_num))
    (hr 2 (by norm_num) (by norm_num)) (hz 2 (by norm_num) 1 (by norm_num) (by norm_num) (by norm_num) (by norm_num)) (hs 2 (by norm_num)) (hz 2 (by norm_num) 3 (by norm_num) (by norm_num) (by norm_num) (by norm_num)) (hz 2 (by norm_num) 4 (by norm_num) (by norm_num) (by norm_num) (by norm_num))
    (hr 3 (by norm_num) (by norm_num)) (hz 3 (by norm_num) 1 (by norm_num) (by norm_num) (by norm_num) (by norm_num)) (hz 3 (by norm_num) 2 (by norm_num) (by norm_num) (by norm_num) (by norm_num)) (hs 3 (by norm_num)) (hz 3 (by norm_num) 4 (by norm_num) (by norm_num) (by norm_num) (by norm_num))
    (hr 4 (by norm_num) (by norm_num)) (hz 4 (by norm_num) 1 (by norm_num) (by norm_num) (by norm_num) (by norm_num)) (hz 4 (by norm_num) 2 (by norm_num) (by norm_num) (by norm_num) (by norm_num)) (hz 4 (by norm_num) 3 (by norm_num) (by norm_num) (by norm_num) (by norm_num)) (hs 4 (by norm_num))
  rw [hside, key] at h2
  have hcp : 0 < 1 / (8 * Real.pi * mu) := by positivity
  nlinarith

end SD
