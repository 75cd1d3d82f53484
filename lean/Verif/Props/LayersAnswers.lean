import Verif.Props.LayersGrand
import Verif.Props.PeriodicGrand

/-!
# C82, continued: the grand resistance matrix and the answers
-/

set_option autoImplicit false

namespace SD

open Spec Filter Topology

theorem InArray.cell {bl tr Ot : Vec3} {Et : Mat3} {a b : Fin 3} {g : ℝ} {P : PosData}
    (hP : InArray bl tr Ot Et a b g P) (hs : Separate P) : CellSensible (Ewald.boxBasis bl tr Ot Et) P := by
  refine ⟨hP.sensible.radius_pos, fun x hx y hy hxy hl => ?_⟩
  refine hP.clear hx hy hxy _ hl ?_
  rw [gap_separate hs hx hy hxy]
  funext m
  simp

section
variable {u : UserInput} {a b : Fin 3} {g : ℝ} {P : PosData} (hP : InArray u.bl u.tr u.Ot u.Et a b g P)
  (hs : Separate P) {S : Settings} (hS : S.use_drag_Minfinity = false) (hk : 0 ≤ S.cutoff_factor) {T : ScalarTable}
  {B : Mat3} (hB : FoldedBox (fun i => u.tr i - u.bl i) u.Ot u.Et B) (hT : CellTabulated B T.lam P S.cutoff_factor)
  (input : Config → ℝ → ℝ → Vel → Option NDMat → Option UserInput) (bb : Bool) (last : NDMat) {A : NDMat}
  (hr : A.rows = side P) (hc : A.cols = side P) (hA : ∀ i < side P, ∀ j < side P,
    Tendsto (fun n => (Ewald.generate_Minfinity_periodic n P u.bl u.tr u.mu u.Ot u.Et bb).get i j) atTop (𝓝 (A.get i j)))
include hP hs hS hk hB hT hr hc hA

/-- **C82** (grand matrix). If the limit of the far-field matrix can be inverted, then the grand resistance matrix is
returned from some number of layers on, and it and the cached inverse converge. -/
theorem C82_grand {C0 : NDMat} (hC0 : A.inv = some C0) : ∃ (R C : ℕ → NDMat) (R0 : NDMat),
    (∀ᶠ n in atTop, generate_grand_resistance_matrix_periodic (boxWorld n T input bb) S P last true u
        = some (R n, C n) ∧
      (R n).rows = side P ∧ (R n).cols = side P ∧ Symm (R n).get (side P)) ∧
    R0.rows = side P ∧ R0.cols = side P ∧ Symm R0.get (side P) ∧
    (S.use_Minfinity_only = true → R0 = C0) ∧
    (S.use_Minfinity_only = false → ∃ N, generate_R2Bexact_periodic T P S.cutoff_factor u.mu u.bl u.tr u.Ot u.Et bb
      = some N ∧ R0 = C0.add N) ∧
    ∀ i < side P, ∀ j < side P, Tendsto (fun n => (R n).get i j) atTop (𝓝 (R0.get i j)) ∧
      Tendsto (fun n => (C n).get i j) atTop (𝓝 (C0.get i j)) := by
  obtain ⟨C, hC, hCt⟩ := Perturb.inv_tendsto (n := side P)
    (M := fun n => Ewald.generate_Minfinity_periodic n P u.bl u.tr u.mu u.Ot u.Et bb)
    (fun n => Minfinity_periodic_dims n P _ _ _ _ _ bb) ⟨hr, hc⟩ hA hC0
  have far : ∀ᶠ n in atTop, (C n).rows = side P ∧ (C n).cols = side P ∧ (∀ i j, (C n).get i j = (C n).get j i) := by
    filter_upwards [hC] with n hn
    obtain ⟨-, e1, e2, -, -⟩ := NDMat.inv_some hn
    rw [(Minfinity_periodic_dims n P _ _ _ _ _ bb).1] at e1 e2
    exact ⟨e1, e2, inv_symm hn fun i j => (C54_symmetric n _ _ _ _ P _ bb i j).2.1⟩
  obtain ⟨-, d1, d2, -, -⟩ := NDMat.inv_some hC0
  rw [hr] at d1 d2
  have hC0s : ∀ i < side P, ∀ j < side P, C0.get i j = C0.get j i := fun i hi j hj =>
    tendsto_nhds_unique (hCt i hi j hj) ((hCt j hj i hi).congr' (far.mono fun n h => h.2.2 j i))
  cases hU : S.use_Minfinity_only
  · obtain ⟨-, -, N, -, -, hN, n1, n2, n3, -⟩ := C75_symmetric hP.lt hP.folded
      (C30_simple_shear (fun i => sub_pos.mpr (hP.lt i)) hP.axes hP.shear hP.folded).1 (hP.cell hs) hk
      (folded_unique hB hP.folded ▸ hT) u.mu bb
    refine ⟨fun n => (C n).add N, C, C0.add N, ?_, d1, d2, fun i hi j hj => ?_, by simp, fun _ => ⟨N, hN, rfl⟩,
      fun i hi j hj => ⟨(hCt i hi j hj).add_const _, hCt i hi j hj⟩⟩
    · filter_upwards [hC, far] with n hn hF
      refine ⟨?_, hF.1, hF.2.1, fun i _ j _ => ?_⟩
      · unfold generate_grand_resistance_matrix_periodic boxWorld
        dsimp only
        rw [hS, hU]
        simp only [if_true, Option.bind_eq_bind]
        rw [hn, Option.bind_some, hN, Option.bind_some]
      · show (C n).get i j + N.get i j = (C n).get j i + N.get j i
        rw [hF.2.2 i j, n3 i j]
    · show C0.get i j + N.get i j = C0.get j i + N.get j i
      rw [hC0s i hi j hj, n3 i j]
  · refine ⟨C, C, C0, ?_, d1, d2, fun i hi j hj => hC0s i hi j hj, fun _ => rfl, by simp,
      fun i hi j hj => ⟨hCt i hi j hj, hCt i hi j hj⟩⟩
    filter_upwards [hC, far] with n hn hF
    refine ⟨?_, hF.1, hF.2.1, fun i _ j _ => hF.2.2 i j⟩
    unfold generate_grand_resistance_matrix_periodic boxWorld
    dsimp only
    rw [hS, hU]
    simp only [if_true, Option.bind_eq_bind]
    rw [hn, Option.bind_some]
    rfl

/-- **C82** (answers). If the limit of the far-field matrix is positive definite, and the table does not feed energy into
any pair, then every complete input is solved from some number of layers on, and the motions and loads converge. -/
theorem C82_answers (hM : PosDef A.get (side P)) (hD : TableDissipates T) (hmu : 0 ≤ u.mu) {form : InputForm}
    {inp : Inputs} (hf : formAllowed form P.Ns) (hsz : Sized P.Ns P.Nd inp) (hC : Complete form P.Ns P.Nd inp) :
    ∃ (R C : ℕ → NDMat) (out : ℕ → Outputs) (out0 : Outputs),
    (∀ᶠ n in atTop, generate_grand_resistance_matrix_periodic (boxWorld n T input bb) S P last true u
        = some (R n, C n) ∧ PosDef (R n).get (side P) ∧ solveForm form false P.Ns P.Nd (R n) inp = some (out n)) ∧
    ∀ i < side P, Tendsto (fun n => motion P.Ns P.Nd (out n) i) atTop (𝓝 (motion P.Ns P.Nd out0 i)) ∧
      Tendsto (fun n => load P.Ns P.Nd (out n) i) atTop (𝓝 (load P.Ns P.Nd out0 i)) := by
  obtain ⟨C0, hC0, -, -, hp⟩ := Perturb.inverse_posDef hr hc hM
  obtain ⟨R, Ci, R0, e1, r1, r2, r3, e2, e3, e4⟩ := C82_grand hP hs hS hk hB hT input bb last hr hc hA hC0
  have hR0 : PosDef R0.get (side P) := by
    cases hU : S.use_Minfinity_only
    · obtain ⟨N, hN, rfl⟩ := e3 hU
      obtain ⟨N', hN', -, -, -, n4⟩ := C75_dissipates hP.lt hP.folded
        (C30_simple_shear (fun i => sub_pos.mpr (hP.lt i)) hP.axes hP.shear hP.folded).1 (hP.cell hs) hk
        (folded_unique hB hP.folded ▸ hT) hD hmu bb
      obtain rfl := Option.some.inj (hN.symm.trans hN')
      have hadd : ∀ (w : ℕ → ℝ) (i : ℕ), mulVec (side P) (C0.add N).get w i
          = mulVec (side P) C0.get w i + mulVec (side P) N.get w i := by
        intro w i
        unfold mulVec
        rw [← Finset.sum_add_distrib]
        exact Finset.sum_congr rfl fun j _ => by simp only [NDMat.add]; ring
      rw [posDef_iff]
      intro w hw
      refine lt_of_lt_of_le (posDef_iff.mp hp w hw) ?_
      simp only [hadd, mul_add, Finset.sum_add_distrib]
      linarith [n4 w]
    · rw [e2 hU]
      exact hp
  obtain ⟨out0, ho⟩ := C09_spd_succeeds hf hsz r1 r2 r3 hR0 hC
  obtain ⟨out, o1, o2, o3⟩ := C78_continuous hf hsz (e1.mono fun n h => h.2) r1 r3 hR0
    (fun i hi j hj => (e4 i hi j hj).1) ho
  refine ⟨R, Ci, out, out0, ?_, fun i hi => ⟨o2 i hi, o3 i hi⟩⟩
  filter_upwards [e1, o1, Perturb.posDef_eventually (fun i hi j hj => (e4 i hi j hj).1) hR0] with n h h' h''
  exact ⟨h.1, h'', h'⟩

end

/-! ## The conditions are met -/

theorem demoP_coordinate {x y : ℕ} (hx : x < 4) (hy : y < 4) (e : x ≠ y) : ∃ i,
    2.001 * ((radius demoP x + radius demoP y) / 2) ≤ |centre demoP x i - centre demoP y i|
      ∧ 1 ≤ |centre demoP x i - centre demoP y i| ∧ |centre demoP x i - centre demoP y i| ≤ 5 := by
  interval_cases x <;> interval_cases y <;> first
    | exact absurd rfl e
    | (refine ⟨0, ?_⟩; norm_num [centre, demoP, radius]; done)
    | (refine ⟨1, ?_⟩; norm_num [centre, demoP, radius]; done)
    | (refine ⟨2, ?_⟩; norm_num [centre, demoP, radius]; simp only [Matrix.cons_val]; norm_num; done)

theorem demoP_separate : Separate demoP := by
  intro x hx y hy e
  obtain ⟨i, h, -, -⟩ := demoP_coordinate hx hy e
  exact h.trans (le_len (fun i => centre demoP x i - centre demoP y i) i)

theorem cube_lattice {v : Vec3} :
    InLattice (shearedBox (fun i => (fun _ => (10 : ℝ)) i - (0 : Vec3) i) 0 2 0) v ↔ ∃ m : Fin 3 → ℤ, ∀ i, v i = 10 * m i := by
  unfold InLattice
  refine exists_congr fun m => ?_
  rw [funext_iff]
  refine forall_congr' fun i => ?_
  have : combine (shearedBox (fun i => (fun _ => (10 : ℝ)) i - (0 : Vec3) i) 0 2 0) (fun i => (m i : ℝ)) i = 10 * m i := by
    fin_cases i <;> simp [combine, shearedBox, Fin.sum_univ_three] <;> ring
  rw [this]

/-- Two spheres and a dumbbell in a cube of edge 10. -/
theorem demoP_array : InArray 0 (fun _ => 10) 0 0 0 2 0 demoP := by
  refine ⟨demoP_sensible, fun i => by norm_num, by decide, rest_is_shear, fun x hx y hy hxy v hv => ?_⟩
  obtain ⟨m, hm⟩ := cube_lattice.mp hv
  obtain ⟨i, -, h1, h2⟩ := demoP_coordinate hx hy hxy
  rw [gap_separate demoP_separate hx hy hxy]
  refine lt_of_lt_of_le ?_ (le_len _ i)
  dsimp only
  rw [hm i]
  generalize centre demoP x i - centre demoP y i = r at h1 h2
  by_cases h0 : m i = 0
  · rw [h0]
    simp only [Int.cast_zero, mul_zero, add_zero]
    exact lt_of_lt_of_le (by norm_num) h1
  · have h3 : (1 : ℝ) ≤ |(m i : ℝ)| := by exact_mod_cast Int.one_le_abs h0
    have h5 := abs_sub_abs_le_abs_sub (10 * (m i : ℝ)) (-r)
    rw [abs_neg, sub_neg_eq_add, add_comm (10 * (m i : ℝ)), abs_mul, abs_of_pos (by norm_num : (0 : ℝ) < 10)] at h5
    have : (1 : ℝ) / 10 ^ 10 < 1 := by norm_num
    linarith

example := C82_pair demoP_array 3 false (x := 2) (y := 3) (c1 := .f 0) (c2 := .f 1) (by simp [HasRow, demoP])
  (by simp [HasRow, demoP]) (by decide) (by simp [demoP]) (.inl ⟨0, 1, rfl, rfl⟩)
example := C82_pair demoP_array 3 false (x := 0) (y := 1) (c1 := .s 0) (c2 := .s 1) (by simp [HasRow, demoP])
  (by simp [HasRow, demoP]) (by decide) (by simp [demoP]) (.inr (.inr ⟨0, 1, rfl, rfl⟩))
example := C82_velocity demoP_array 3 false (x := 0) (y := 1) (by simp [demoP]) (by simp [demoP]) (by decide) 0 (.t 1)
  (fun j => by simp)
example := C82_torque_stress demoP_array 3 false (x := 0) (y := 1) (by simp [demoP]) (by simp [demoP]) (by decide) 0 3
example := C82_sphere_bead demoP_array 3 false (x := 0) (y := 3) (by simp [demoP]) (by simp [demoP])
  (by simp [beads, demoP]) (.s 1) (fun j => by simp) 2
example := C82_own demoP_array 3 false (x := 1) (c1 := .s 2) (c2 := .s 2) (by simp [HasRow, demoP])
  (by simp [HasRow, demoP]) (.inr ⟨2, 2, rfl, rfl⟩)
example := C82_own_torque demoP_array 3 false (x := 1) (by simp [demoP]) 0 0
example := C82_matrix demoP_array 3 false

/-- The same, with the larger sphere replaced by an image of it, and everything moved by the same vector. -/
noncomputable def movedP (t : Vec3) : PosData :=
  shift { demoP with spherePos := fun i => if i = 0 then ![0, 0, 0] else ![-6, 0, 20] } t

theorem movedP_same (t : Vec3) :
    SameInBox (shearedBox (fun i => (fun _ => (10 : ℝ)) i - (0 : Vec3) i) 0 2 0) t demoP (movedP t) := by
  refine ⟨rfl, rfl, rfl, rfl, fun x hx => cube_lattice.mpr ?_⟩
  have hx' : x < 4 := hx
  interval_cases x
  · exact ⟨0, fun i => by fin_cases i <;> simp [centre, movedP, shift, demoP]⟩
  · exact ⟨![-1, 0, 2], fun i => by fin_cases i <;> simp [centre, movedP, shift, demoP] <;> ring⟩
  · exact ⟨0, fun i => by fin_cases i <;> simp [centre, movedP, shift, demoP]⟩
  · exact ⟨0, fun i => by fin_cases i <;> simp [centre, movedP, shift, demoP]⟩

theorem movedP_coordinate (t : Vec3) {x y : ℕ} (hx : x < 4) (hy : y < 4) (e : x ≠ y) : ∃ i,
    2.001 * ((radius (movedP t) x + radius (movedP t) y) / 2) ≤ |centre (movedP t) x i - centre (movedP t) y i|
      ∧ 1 ≤ |centre (movedP t) x i - centre (movedP t) y i| := by
  interval_cases x <;> interval_cases y <;> first
    | exact absurd rfl e
    | (refine ⟨0, ?_⟩; norm_num [centre, movedP, shift, demoP, radius]; done)
    | (refine ⟨1, ?_⟩; norm_num [centre, movedP, shift, demoP, radius]; done)
    | (refine ⟨2, ?_⟩; norm_num [centre, movedP, shift, demoP, radius]; simp only [Matrix.cons_val]; ring_nf; norm_num; done)

theorem movedP_separate (t : Vec3) : Separate (movedP t) := by
  intro x hx y hy e
  obtain ⟨i, h, -⟩ := movedP_coordinate t hx hy e
  exact h.trans (le_len (fun i => centre (movedP t) x i - centre (movedP t) y i) i)

theorem movedP_sensible (t : Vec3) : Sensible (movedP t) := by
  refine ⟨fun x hx => ?_, fun x hx y hy e => ?_⟩
  · have hx' : x < 4 := hx
    interval_cases x <;> norm_num [radius, movedP, shift, demoP]
  · obtain ⟨i, -, h⟩ := movedP_coordinate t hx hy e
    exact lt_of_lt_of_le (lt_of_lt_of_le (by norm_num) h) (le_len (fun i => centre (movedP t) x i - centre (movedP t) y i) i)

example := C82_images demoP_array demoP_separate (movedP_separate ![1, 2, 3]) (movedP_same ![1, 2, 3])
  (movedP_sensible ![1, 2, 3]) 3 true (i := 12) (j := 27) (by simp [side, demoP]) (by simp [side, demoP])

/-- A sphere between two dumbbells in a box being sheared: the limits in a large box are close to the unbounded fluid. -/
example : ∃ A : ℝ → ℝ, (∀ᶠ L in atTop, Tendsto (fun n => (boxMatrix n 0 (farCorner 0 ![2, 1, 1] L) skewO skewE starP 3
      true).get (row 1 0 (.t 0)) (row 1 2 (.f 1))) atTop (𝓝 (A L))) ∧
    Tendsto A atTop (𝓝 (systemMob 1 true (centre starP) (radius starP) 3 0 (.t 0) 2 (.f 1))) := by
  have hd : ∀ i, (0 : ℝ) < (![2, 1, 1] : Vec3) i := fun i => by fin_cases i <;> simp
  have hx : HasRow starP.Ns starP.Nd 0 (.t 0) := by simp [HasRow, starP]
  have hy : HasRow starP.Ns starP.Nd 2 (.f 1) := by simp [HasRow, starP]
  obtain ⟨a, b, g, hab, hs⟩ := skew_is_shear
  have h : ∀ᶠ L in atTop, Tendsto (fun n => (boxMatrix n 0 (farCorner 0 ![2, 1, 1] L) skewO skewE starP 3 true).get
      (row starP.Ns 0 (.t 0)) (row starP.Ns 2 (.f 1))) atTop
      (𝓝 (arrayEntry 0 (farCorner 0 ![2, 1, 1] L) skewO skewE starP 3 true 0 (.t 0) 2 (.f 1))) := by
    filter_upwards [inArray_eventually hd hab hs 0 starP_sensible] with L hL
    exact (entry_rapid hL 3 true hx hy).tendsto
  exact ⟨_, h, C82_large hd hab hs 0 starP_sensible 3 true hx hy (.inl rfl)
    (.inr (by rw [starP_radius (by simp [beads, starP]), starP_radius (by simp [beads, starP])])) h⟩

/-- In every large enough box, the motions and loads of a sphere between two dumbbells converge as layers are added. -/
example (input : Config → ℝ → ℝ → Vel → Option NDMat → Option UserInput) (last : NDMat) :
    ∀ᶠ L in atTop, ∃ (R C : ℕ → NDMat) (out : ℕ → Outputs) (out0 : Outputs),
      (∀ᶠ n in atTop, generate_grand_resistance_matrix_periodic (boxWorld n dampT input true) (starSettings .euler 1)
          starP last true (grow starShear ![2, 1, 1] L) = some (R n, C n) ∧ PosDef (R n).get 23 ∧
        solveForm .ufte false 1 2 (R n) starInp = some (out n)) ∧
      ∀ i < 23, Tendsto (fun n => motion 1 2 (out n) i) atTop (𝓝 (motion 1 2 out0 i)) ∧
        Tendsto (fun n => load 1 2 (out n) i) atTop (𝓝 (load 1 2 out0 i)) := by
  have hd : ∀ i, (0 : ℝ) < (![2, 1, 1] : Vec3) i := fun i => by fin_cases i <;> simp
  obtain ⟨a, b, g, hab, hs⟩ := skew_is_shear
  have hin := inArray_eventually hd hab hs 0 starP_sensible
  have hex : ∃ A : ℝ → NDMat, ∀ᶠ L in atTop, (A L).rows = side starP ∧ (A L).cols = side starP ∧
      ∀ i < side starP, ∀ j < side starP, Tendsto (fun n => (Ewald.generate_Minfinity_periodic n starP 0
        (farCorner 0 ![2, 1, 1] L) 3 skewO skewE true).get i j) atTop (𝓝 ((A L).get i j)) := by
    have : ∀ L, ∃ A : NDMat, InArray 0 (farCorner 0 ![2, 1, 1] L) skewO skewE a b g starP → A.rows = side starP ∧
        A.cols = side starP ∧ ∀ i < side starP, ∀ j < side starP, Tendsto (fun n =>
          (Ewald.generate_Minfinity_periodic n starP 0 (farCorner 0 ![2, 1, 1] L) 3 skewO skewE true).get i j) atTop
          (𝓝 (A.get i j)) := by
      intro L
      by_cases h : InArray 0 (farCorner 0 ![2, 1, 1] L) skewO skewE a b g starP
      · obtain ⟨A, h1, h2, h3, -⟩ := C82_matrix h 3 true
        exact ⟨A, fun _ => ⟨h1, h2, fun i hi j hj => (h3 i hi j hj).tendsto⟩⟩
      · exact ⟨NDMat.zeros 1 1, fun h' => absurd h' h⟩
    choose A hA using this
    exact ⟨A, hin.mono fun L h => hA L h⟩
  obtain ⟨A, hA⟩ := hex
  filter_upwards [hin, hA, C82_mobility hd hab hs 0 starP_sensible starP_separate (show (0 : ℝ) < 3 by norm_num) (.inl rfl)
    starP_one_size (hA.mono fun L h => h.2.2)] with L h1 h2 h3
  exact C82_answers (S := starSettings .euler 1) (u := grow starShear ![2, 1, 1] L) (T := dampT) h1 starP_separate rfl
    (by norm_num [starSettings]) h1.folded
    (fun x hx y hy _ => by
      rw [starP_radius hx, starP_radius hy]
      exact ⟨1, by norm_num [dampT], by norm_num⟩)
    input true last h2.1 h2.2.1 h2.2.2 h3 dampT_dissipates (show (0 : ℝ) ≤ 3 by norm_num)
    (form := .ufte) ⟨fun h => absurd h (by simp [starP]), fun _ => by simp⟩ starInp_sized starInp_complete_ufte

end SD
