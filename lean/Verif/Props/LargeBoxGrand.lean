import Verif.Props.LargeBoxMatrix
import Verif.Props.Progress

/-!
# C77, continued: the grand resistance matrix and the answers
-/

set_option autoImplicit false

namespace SD

open Spec Filter Topology

/-- The input with the box of sides `L d`, its first corner kept. -/
def grow (u : UserInput) (d : Vec3) (L : ℝ) : UserInput :=
  { u with tr := farCorner u.bl d L }

theorem Minfinity_periodic_dims (n : ℕ) (P : PosData) (bl tr : Vec3) (mu : ℝ) (Ot : Vec3) (Et : Mat3) (bb : Bool) :
    (Ewald.generate_Minfinity_periodic n P bl tr mu Ot Et bb).rows = side P ∧
    (Ewald.generate_Minfinity_periodic n P bl tr mu Ot Et bb).cols = side P :=
  (C54_symmetric n bl tr Ot Et P mu bb 0 0).2.2

/-- In a large enough box every displacement is in the cell. -/
theorem inCell_eventually {B : Mat3} (hB : Spans B) (v : Vec3) :
    ∀ᶠ L : ℝ in atTop, InCell (fun k i => L * B k i) v := by
  obtain ⟨Bi, -, -, -, -, h2⟩ := inv3_some ((spans_iff B).mp hB)
  set c := vecMat3 v Bi with hc
  have hv : v = combine B c := by rw [← vecMat3_eq, h2]
  have h : ∀ᶠ L : ℝ in atTop, ∀ i, -(1 / 2) ≤ c i / L ∧ c i / L < 1 / 2 := by
    refine eventually_all.mpr fun i => ?_
    have := (Ewald.div_tendsto_zero (c i)).eventually (Ioo_mem_nhds (show -(1 / 2 : ℝ) < 0 by norm_num)
      (show (0 : ℝ) < 1 / 2 by norm_num))
    exact this.mono fun L hL => ⟨hL.1.le, hL.2⟩
  filter_upwards [h, eventually_gt_atTop 0] with L hL h0
  refine ⟨fun i => c i / L, hL, ?_⟩
  rw [hv]
  funext m
  simp only [combine]
  field_simp

/-- In a large enough box the near field is that of an unbounded fluid. -/
theorem near_eventually {d Ot : Vec3} {Et : Mat3} (hd : ∀ i, 0 < d i) (hsh : ∃ a b g, a ≠ b ∧ IsShear Ot Et a b g)
    (o : Vec3) {P : PosData} {k : ℝ} (hk : 0 < k) (hr : ∀ x < beads P, 0 < radius P x ∧ radius P x ≤ 1)
    (hn : ∀ x < beads P, ∀ y < beads P, x < y →
      len (fun m => centre P y m - centre P x m) / ((radius P x + radius P y) / 2) ≠ 2 * k)
    (T : ScalarTable) (mu : ℝ) (bb : Bool) :
    ∀ᶠ L in atTop, generate_R2Bexact_periodic T P k mu o (farCorner o d L) Ot Et bb = generate_R2Bexact T P k mu bb := by
  obtain ⟨a, b, g, hab, hs⟩ := hsh
  have f1 : FoldedBox (fun i => d i - (0 : Vec3) i) Ot Et (Ewald.boxBasis 0 d Ot Et) :=
    shear_basis_folded fun i => by simpa using hd i
  have s1 := (C30_simple_shear (fun i => by simpa using hd i) hab hs f1).1
  have hc : ∀ᶠ L : ℝ in atTop, ∀ x ∈ Finset.range (beads P), ∀ y ∈ Finset.range (beads P),
      InCell (fun k i => L * Ewald.boxBasis 0 d Ot Et k i) fun m => centre P y m - centre P x m :=
    (eventually_all_finset _).mpr fun x _ => (eventually_all_finset _).mpr fun y _ => inCell_eventually s1 _
  filter_upwards [hc, eventually_gt_atTop 0] with L hL h0
  have hside : ∀ i, 0 < farCorner o d L i - o i := fun i => by
    unfold farCorner; have := mul_pos h0 (hd i); linarith
  have f2 : FoldedBox (fun i => farCorner o d L i - o i) Ot Et (Ewald.boxBasis o (farCorner o d L) Ot Et) :=
    shear_basis_folded hside
  have s2 := (C30_simple_shear hside hab hs f2).1
  refine C75_unbounded (fun i => by linarith [hside i]) f2 s2 hk hr (fun x hx y hy _ => ?_) hn T mu bb
  have e : Ewald.boxBasis o (farCorner o d L) Ot Et = fun k i => L * Ewald.boxBasis 0 d Ot Et k i :=
    Ewald.basis_scale h0 o hd Ot Et
  rw [e]
  exact hL x (Finset.mem_range.mpr hx) y (Finset.mem_range.mpr hy)

section
variable {d : Vec3} (hd : ∀ i, 0 < d i) {u : UserInput} (hsh : ∃ a b g, a ≠ b ∧ IsShear u.Ot u.Et a b g)
  {P : PosData} (hP : Sensible P) {bb : Bool} (hbb : bb = true ∨ P.Nd = 0) (h1 : OneSize P) {S : Settings}
  (hS : S.use_drag_Minfinity = false) (hk : 0 < S.cutoff_factor) (hr : ∀ x < beads P, radius P x ≤ 1)
  (hn : ∀ x < beads P, ∀ y < beads P, x < y →
      len (fun m => centre P y m - centre P x m) / ((radius P x + radius P y) / 2) ≠ 2 * S.cutoff_factor)
  {T : ScalarTable} (hT : Tabulated T.lam P S.cutoff_factor) (n : ℕ)
  (input : Config → ℝ → ℝ → Vel → Option NDMat → Option UserInput) {last R0 C0 : NDMat}
  (h0 : generate_grand_resistance_matrix T P last true S.cutoff_factor false S.use_Minfinity_only u.mu bb
    = some (R0, C0))
include hd hsh hP hbb h1 hS hk hr hn hT h0

/-- **C77** (grand matrix). If the grand resistance matrix can be assembled in an unbounded fluid, then it can in every
large enough box. It is symmetric, and it and the cached far-field inverse tend to those of the unbounded fluid. -/
theorem C77_grand : ∃ R C : ℝ → NDMat,
    (∀ᶠ L in atTop, generate_grand_resistance_matrix_periodic (boxWorld n T input bb) S P last true (grow u d L)
        = some (R L, C L) ∧
      (R L).rows = side P ∧ (R L).cols = side P ∧ Symm (R L).get (side P)) ∧
    ∀ i < side P, ∀ j < side P, Tendsto (fun L => (R L).get i j) atTop (𝓝 (R0.get i j)) ∧
      Tendsto (fun L => (C L).get i j) atTop (𝓝 (C0.get i j)) := by
  obtain ⟨g1, g2, g3⟩ := grand_some h0
  simp only [if_true] at g1
  obtain ⟨C, hC, hCt⟩ := Perturb.inv_tendsto (n := side P)
    (M := fun L => Ewald.generate_Minfinity_periodic n P u.bl (farCorner u.bl d L) u.mu u.Ot u.Et bb)
    (fun L => Minfinity_periodic_dims n P _ _ _ _ _ bb) (Minfinity_dims P u.mu bb)
    (fun i hi j hj => C77_matrix hd hsh hP n u.bl u.mu hbb h1 hi hj) g1
  have hsy0 := C25_symmetric hP hk hT (by simp) h0
  have far : ∀ᶠ L in atTop, (C L).rows = side P ∧ (C L).cols = side P ∧ (∀ i j, (C L).get i j = (C L).get j i) := by
    filter_upwards [hC] with L hL
    obtain ⟨-, e1, e2, -, -⟩ := NDMat.inv_some hL
    rw [(Minfinity_periodic_dims n P _ _ _ _ _ bb).1] at e1 e2
    exact ⟨e1, e2, inv_symm hL fun i j => (C54_symmetric n _ _ _ _ P _ bb i j).2.1⟩
  cases hU : S.use_Minfinity_only
  · obtain ⟨N, hN, rfl⟩ := g2 hU
    have hNs : ∀ i j, N.get i j = N.get j i := by
      intro i j
      obtain ⟨q1, q2⟩ := hsy0 i j
      have : N.get i j + C0.get i j = N.get j i + C0.get j i := q1
      linarith
    refine ⟨fun L => (C L).add N, C, ?_, fun i hi j hj => ⟨?_, hCt i hi j hj⟩⟩
    · filter_upwards [hC, far, near_eventually hd hsh u.bl hk (fun x hx => ⟨hP.radius_pos x hx, hr x hx⟩) hn T u.mu bb]
        with L hL hF hNL
      refine ⟨?_, hF.1, hF.2.1, fun i _ j _ => ?_⟩
      · unfold generate_grand_resistance_matrix_periodic boxWorld grow
        dsimp only
        rw [hS, hU]
        simp only [if_true, Option.bind_eq_bind]
        rw [hL, Option.bind_some, hNL, hN, Option.bind_some]
      · show (C L).get i j + N.get i j = (C L).get j i + N.get j i
        rw [hF.2.2 i j, hNs i j]
    · show Tendsto (fun L => (C L).get i j + N.get i j) atTop (𝓝 (N.get i j + C0.get i j))
      rw [add_comm (N.get i j)]
      exact (hCt i hi j hj).add_const _
  · obtain rfl := g3 hU
    refine ⟨C, C, ?_, fun i hi j hj => ⟨hCt i hi j hj, hCt i hi j hj⟩⟩
    filter_upwards [hC, far] with L hL hF
    refine ⟨?_, hF.1, hF.2.1, fun i _ j _ => hF.2.2 i j⟩
    unfold generate_grand_resistance_matrix_periodic boxWorld grow
    dsimp only
    rw [hS, hU]
    simp only [if_true, Option.bind_eq_bind]
    rw [hL, Option.bind_some]
    rfl

/-- **C77** (answers). If moreover the grand resistance matrix of the unbounded fluid is positive definite, then every
complete input is solved in every large enough box, and the motions and loads tend to those in the unbounded fluid. -/
theorem C77_answers (hR0 : PosDef R0.get (side P)) {form : InputForm} {inp : Inputs} (hf : formAllowed form P.Ns)
    (hsz : Sized P.Ns P.Nd inp) (hC : Complete form P.Ns P.Nd inp) : ∃ (R C : ℝ → NDMat) (out : ℝ → Outputs)
    (out0 : Outputs), solveForm form false P.Ns P.Nd R0 inp = some out0 ∧
    (∀ᶠ L in atTop, generate_grand_resistance_matrix_periodic (boxWorld n T input bb) S P last true (grow u d L)
        = some (R L, C L) ∧ solveForm form false P.Ns P.Nd (R L) inp = some (out L)) ∧
    ∀ i < side P, Tendsto (fun L => motion P.Ns P.Nd (out L) i) atTop (𝓝 (motion P.Ns P.Nd out0 i)) ∧
      Tendsto (fun L => load P.Ns P.Nd (out L) i) atTop (𝓝 (load P.Ns P.Nd out0 i)) := by
  obtain ⟨R, C, e1, e2⟩ := C77_grand hd hsh hP hbb h1 hS hk hr hn hT n input h0
  have hsy0 := C25_symmetric hP hk hT (by simp) h0
  obtain ⟨g1, g2, g3⟩ := grand_some h0
  have hdim : R0.rows = side P ∧ R0.cols = side P := by
    simp only [if_true] at g1
    obtain ⟨-, q1, q2, -, -⟩ := NDMat.inv_some g1
    rw [(Minfinity_dims P u.mu bb).1] at q1 q2
    cases hU : S.use_Minfinity_only
    · obtain ⟨N, hN, rfl⟩ := g2 hU
      obtain ⟨N', hN', n2, n3, -⟩ := C20_symmetric hP hk hT u.mu bb
      obtain rfl := Option.some.inj (hN.symm.trans hN')
      exact ⟨n2, n3⟩
    · obtain rfl := g3 hU
      exact ⟨q1, q2⟩
  obtain ⟨out0, ho⟩ := C09_spd_succeeds hf hsz hdim.1 hdim.2 (fun i _ j _ => (hsy0 i j).1) hR0 hC
  obtain ⟨out, o1, o2, o3⟩ := C78_continuous hf hsz (e1.mono fun L h => h.2) hdim.1 (fun i _ j _ => (hsy0 i j).1) hR0
    (fun i hi j hj => (e2 i hi j hj).1) ho
  refine ⟨R, C, out, out0, ho, ?_, fun i hi => ⟨o2 i hi, o3 i hi⟩⟩
  filter_upwards [e1, o1] with L h h'
  exact ⟨h.1, h'⟩

end

/-! A sphere between two dumbbells, in a box that is being sheared -/

theorem starP_one_size : OneSize starP := by
  intro x hx y _ hy'
  rw [starP_radius (show x < 5 by have : x < 1 := hx; omega), starP_radius hy']

theorem skew_is_shear : ∃ a b g, a ≠ b ∧ IsShear skewO skewE a b g := by
  refine ⟨0, 2, 9 / 10, by decide, fun x k => ?_⟩
  fin_cases k <;> simp [cross, app, dotp, skewO, skewE, Fin.sum_univ_three] <;> ring

/-- The forces `starInp` in a sheared box. -/
noncomputable def starShear : UserInput := { starUser 0 0 0 with Ot := skewO, Et := skewE }

theorem starP_not_at_cutoff : ∀ x < beads starP, ∀ y < beads starP, x < y →
    len (fun m => centre starP y m - centre starP x m) / ((radius starP x + radius starP y) / 2) ≠ 2 * 5 := by
  intro x hx y hy hxy h
  rw [starP_radius hx, starP_radius hy] at h
  have h' : len (fun m => centre starP y m - centre starP x m) = 10 := by linarith
  have h2 : len (fun m => centre starP y m - centre starP x m) ^ 2 = 100 := by rw [h']; norm_num
  unfold len at h2
  rw [Real.sq_sqrt (Finset.sum_nonneg fun i _ => sq_nonneg _), Fin.sum_univ_three] at h2
  have hx' : x < 5 := hx
  have hy' : y < 5 := hy
  interval_cases x <;> interval_cases y <;> first
    | omega
    | (simp [centre, starP] at h2; norm_num at h2)

/-- The far field of the sphere between two dumbbells in a large box tends to that of the unbounded fluid, and is
positive definite in every large enough box. -/
example (n i j : ℕ) (hi : i < 23) (hj : j < 23) :
    Tendsto (fun L => (Ewald.generate_Minfinity_periodic n starP 0 (farCorner 0 ![2, 1, 1] L) 3 skewO skewE true).get i j)
      atTop (𝓝 ((generate_Minfinity starP 3 true).get i j)) ∧
    ∀ᶠ L in atTop, PosDef
      (Ewald.generate_Minfinity_periodic n starP 0 (farCorner 0 ![2, 1, 1] L) 3 skewO skewE true).get 23 := by
  have hd : ∀ i, (0 : ℝ) < (![2, 1, 1] : Vec3) i := fun i => by fin_cases i <;> simp
  exact ⟨C77_matrix hd skew_is_shear starP_sensible n 0 3 (.inl rfl) starP_one_size hi hj,
    C77_mobility hd skew_is_shear starP_sensible n 0 starP_separate (by norm_num) (.inl rfl) starP_one_size⟩

/-- Spheres of sizes 1 and 2 beside a dumbbell of another size: forces on the spheres move each other as in an unbounded
fluid, and forces on the beads turn the spheres as if the radii were exchanged. -/
example (n : ℕ) (i j : Fin 3) :
    Tendsto (fun L => (boxMatrix n 0 (farCorner 0 ![2, 1, 1] L) skewO skewE demoP 3 false).get (row 2 0 (.f i))
      (row 2 1 (.f j))) atTop (𝓝 (systemMob 2 false (centre demoP) (radius demoP) 3 0 (.f i) 1 (.f j))) ∧
    Tendsto (fun L => (boxMatrix n 0 (farCorner 0 ![2, 1, 1] L) skewO skewE demoP 3 false).get (row 2 0 (.t i))
      (row 2 2 (.f j))) atTop
      (𝓝 (1 / (8 * Real.pi * 3) * pairMob (radius demoP 2) (radius demoP 0) (.t i) (.f j) (gap demoP 0 2))) ∧
    Tendsto (fun L => (boxMatrix n 0 (farCorner 0 ![2, 1, 1] L) skewO skewE demoP 3 false).get (row 2 2 (.f i))
      (row 2 3 (.f j))) atTop
      (𝓝 (1 / (8 * Real.pi * 3) * pairMob (radius demoP 2) (radius demoP 3) (.f i) (.f j) (gap demoP 2 3))) := by
  have hd : ∀ i, (0 : ℝ) < (![2, 1, 1] : Vec3) i := fun i => by fin_cases i <;> simp
  refine ⟨C77_entry hd skew_is_shear demoP_sensible n 0 3 false ?_ ?_ (.inr (.inl ?_)) (.inl ?_),
    C77_exchanged hd skew_is_shear demoP_sensible n 0 3 false ?_ ?_ ?_ (.t i) (by simp) j,
    (C77_own_beads hd skew_is_shear demoP_sensible n 0 3 (P := demoP) (x := 2) ?_ ?_ i j).1⟩ <;>
    simp [HasRow, demoP, beads]

/-- With forces on all of them, near and far field: the answers tend to those in the unbounded fluid. -/
example (n : ℕ) (input : Config → ℝ → ℝ → Vel → Option NDMat → Option UserInput) (last : NDMat) :
    ∃ (R C : ℝ → NDMat) (R0 C0 : NDMat) (out : ℝ → Outputs) (out0 : Outputs),
      generate_grand_resistance_matrix dampT starP last true 5 false false 3 true = some (R0, C0) ∧
      solveForm .ufte false 1 2 R0 starInp = some out0 ∧
      (∀ᶠ L in atTop, generate_grand_resistance_matrix_periodic (boxWorld n dampT input true) (starSettings .euler 1)
          starP last true (grow starShear ![2, 1, 1] L) = some (R L, C L) ∧
        solveForm .ufte false 1 2 (R L) starInp = some (out L)) ∧
      ∀ i < 23, Tendsto (fun L => motion 1 2 (out L) i) atTop (𝓝 (motion 1 2 out0 i)) ∧
        Tendsto (fun L => load 1 2 (out L) i) atTop (𝓝 (load 1 2 out0 i)) := by
  have hd : ∀ i, (0 : ℝ) < (![2, 1, 1] : Vec3) i := fun i => by fin_cases i <;> simp
  obtain ⟨R0, C0, h1, -, h2, -⟩ := C60_solvable dampT_dissipates (k := 5) starP_sensible starP_separate (by norm_num)
    starP_tabulated (mu := 3) (by norm_num) (.inl rfl) last
  obtain ⟨R, C, out, out0, e1, e2, e3⟩ := C77_answers (S := starSettings .euler 1) (u := starShear) hd skew_is_shear
    starP_sensible (.inl rfl) starP_one_size rfl (show (0 : ℝ) < 5 by norm_num) (fun x hx => (starP_radius hx).le)
    starP_not_at_cutoff starP_tabulated n input h1 h2 (form := .ufte)
    ⟨fun h => absurd h (by simp [starP]), fun _ => by simp⟩ starInp_sized starInp_complete_ufte
  exact ⟨R, C, R0, C0, out, out0, h1, e1, e2, e3⟩

end SD
