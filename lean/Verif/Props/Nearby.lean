import Verif.Lemmas.Nearby
import Verif.Lemmas.MovedRun
import Verif.Props.SolveStable
import Verif.Props.ShippedSolve

/-!
# C95: small changes of the places make small changes of the answer, unless a pair is at the range of the near field
-/

set_option autoImplicit false

namespace SD

open Spec Nearby Filter Topology

variable {β : Type} {F : Filter β} {P : β → PosData} {P0 : PosData}

/-- **C95** (far field). If the particles move to the places of `P0`, then every entry of the far-field mobility matrix
tends to that of `P0`, also where beads overlap. -/
theorem C95_far (hA : Approaches F P P0) (h0 : Sensible P0) (mu : ℝ) (bb : Bool) {i j : ℕ} (hi : i < side P0)
    (hj : j < side P0) :
    Tendsto (fun t => (generate_Minfinity (P t) mu bb).get i j) F (𝓝 ((generate_Minfinity P0 mu bb).get i j)) :=
  far_tendsto hA h0 mu bb hi hj

/-- **C95** (near field). If moreover in `P0` no pair of beads is exactly at the range of the near field, the table has
ascending distances and contains the size ratios that occur, then the near-field matrix can be assembled in all places
near those of `P0`, and every entry tends to that of `P0`. -/
theorem C95_near (hA : Approaches F P P0) (h0 : Sensible P0) {T : ScalarTable} (hT : Ascending T.sDash) {k : ℝ} (hk : 0 < k)
    (hr : ¬ AtRange k P0) (hTab : Tabulated T.lam P0 k) (mu : ℝ) (bb : Bool) {N0 : NDMat}
    (hN0 : generate_R2Bexact T P0 k mu bb = some N0) :
    ∃ N : β → NDMat, (∀ᶠ t in F, generate_R2Bexact T (P t) k mu bb = some (N t)) ∧
      ∀ i < side P0, ∀ j < side P0, Tendsto (fun t => (N t).get i j) F (𝓝 (N0.get i j)) :=
  near_tendsto hA hT h0 hr hk hTab mu bb hN0

theorem dragDiagonal_same (hA : Approaches F P P0) (t : β) : dragDiagonal (P t) = dragDiagonal P0 := by
  unfold dragDiagonal
  rw [hA.Ns, hA.Nd]
  have s : ∀ i < P0.Ns, (P t).sphereSize i = P0.sphereSize i := by
    intro i hi
    have := hA.size t i (by unfold beads; omega)
    rwa [radius, radius, if_pos (by rw [hA.Ns]; exact hi), if_pos hi] at this
  have d : ∀ i < P0.Nd, (P t).dumbSize i = P0.dumbSize i := by
    intro i hi
    have := hA.size t (P0.Ns + i) (by unfold beads; omega)
    simpa [radius, hA.Ns, hA.Nd, hi] using this
  congr 1
  · congr 1
    · congr 1
      · congr 1
        · exact List.map_congr_left fun i hi => s _ (by rw [List.mem_range] at hi; omega)
        · exact List.map_congr_left fun i hi => by rw [s _ (by rw [List.mem_range] at hi; omega)]
      · exact List.map_congr_left fun i hi => by rw [s _ (by rw [List.mem_range] at hi; omega)]
    · exact List.map_congr_left fun i hi => by rw [d _ (by rw [List.mem_range] at hi; omega)]
  · exact List.map_congr_left fun i hi => by rw [d _ (by rw [List.mem_range] at hi; omega)]

/-- The matrices tend to `C0`, and have its shape and symmetry. -/
structure MatTo (F : Filter β) (n : ℕ) (C : β → NDMat) (C0 : NDMat) : Prop where
  dims : ∀ᶠ t in F, (C t).rows = n ∧ (C t).cols = n
  symm : ∀ᶠ t in F, ∀ i j, (C t).get i j = (C t).get j i
  lim : ∀ i < n, ∀ j < n, Tendsto (fun t => (C t).get i j) F (𝓝 (C0.get i j))

section
variable (hA : Approaches F P P0) (h0 : Sensible P0) {T : ScalarTable} (hT : Ascending T.sDash) {k : ℝ} (hk : 0 < k)
  {dragM only reg bb : Bool} (hr : only = false → ¬ AtRange k P0) (hTab : Tabulated T.lam P0 k) {mu : ℝ} {last : β → NDMat}
  {last0 : NDMat} (hl : dragM = false → reg = false → MatTo F (side P0) last last0)
  {R0 C0 : NDMat} (hG : generate_grand_resistance_matrix T P0 last0 reg k dragM only mu bb = some (R0, C0))
include hA h0 hT hk hr hTab hl hG

/-- **C95** (grand resistance matrix). In every mode, also when the far field of an earlier frame is used again (which
then has to tend to that used for `P0`): the grand resistance matrix can be assembled in all places near those of `P0`,
and it and the far field that is kept for later tend to those of `P0`. -/
theorem C95_grand : ∃ R C : β → NDMat,
    (∀ᶠ t in F, generate_grand_resistance_matrix T (P t) (last t) reg k dragM only mu bb = some (R t, C t)) ∧
    MatTo F (side P0) R R0 ∧ MatTo F (side P0) C C0 := by
  obtain ⟨g1, g2, g3⟩ := grand_some hG
  have far : ∃ C : β → NDMat, (∀ᶠ t in F, (if dragM = false then
      if reg then (generate_Minfinity (P t) mu bb).inv else some (last t)
    else some (NDMat.smul mu (npDiag (dragDiagonal (P t))))) = some (C t)) ∧ MatTo F (side P0) C C0 := by
    cases dragM
    · rw [if_pos rfl] at g1
      cases reg
      · rw [if_neg (by simp)] at g1
        obtain rfl := Option.some.inj g1
        exact ⟨last, Eventually.of_forall fun t => by simp, hl rfl rfl⟩
      · rw [if_pos rfl] at g1
        have dims : ∀ t, (generate_Minfinity (P t) mu bb).rows = side P0 ∧ (generate_Minfinity (P t) mu bb).cols = side P0 :=
          fun t => by rw [← same_side hA t]; exact Minfinity_dims (P t) mu bb
        obtain ⟨C, c1, c2⟩ := Perturb.inv_tendsto (n := side P0) (M := fun t => generate_Minfinity (P t) mu bb) dims
          (Minfinity_dims P0 mu bb) (fun i hi j hj => far_tendsto hA h0 mu bb hi hj) g1
        refine ⟨C, c1.mono fun t ht => by simpa using ht, ?_, ?_, c2⟩
        · filter_upwards [c1] with t ht
          obtain ⟨-, e1, e2, -, -⟩ := NDMat.inv_some ht
          rw [(dims t).1] at e1 e2
          exact ⟨e1, e2⟩
        · filter_upwards [c1] with t ht
          exact inv_symm ht (Minfinity_symm (P t) mu bb)
    · rw [if_neg (by simp)] at g1
      obtain rfl := Option.some.inj g1
      refine ⟨fun t => NDMat.smul mu (npDiag (dragDiagonal (P t))), Eventually.of_forall fun t => by simp,
        Eventually.of_forall fun t => ?_, Eventually.of_forall fun t i j => ?_, fun i _ j _ => ?_⟩
      · constructor <;> simp [NDMat.smul, npDiag, dragDiagonal, hA.Ns, hA.Nd, side] <;> omega
      · show mu * (if i = j then _ else _) = mu * (if j = i then _ else _)
        by_cases e : i = j
        · rw [e]
        · rw [if_neg e, if_neg (Ne.symm e)]
      · simp only [dragDiagonal_same hA]
        exact tendsto_const_nhds
  obtain ⟨C, c1, c2⟩ := far
  cases only
  · obtain ⟨N0, hN0, rfl⟩ := g2 rfl
    obtain ⟨N, n1, n2⟩ := near_tendsto hA hT h0 (hr rfl) hk hTab mu bb hN0
    have nd : ∀ᶠ t in F, (N t).rows = side P0 ∧ (N t).cols = side P0 ∧ ∀ i j, (N t).get i j = (N t).get j i := by
      filter_upwards [n1, sensible_eventually hA h0, tabulated_eventually hA h0 (hr rfl) hTab] with t h1 h2 h3
      obtain ⟨N', q1, q2, q3, q4⟩ := C20_symmetric h2 hk h3 mu bb
      obtain rfl := Option.some.inj (h1.symm.trans q1)
      rw [same_side hA] at q2 q3
      exact ⟨q2, q3, q4⟩
    refine ⟨fun t => (N t).add (C t), C, ?_, ⟨nd.mono fun t h => ⟨h.1, h.2.1⟩, ?_, fun i hi j hj => ?_⟩, c2⟩
    · filter_upwards [c1, n1] with t h1 h2
      unfold generate_grand_resistance_matrix
      rw [h1, Option.bind_eq_bind, Option.bind_some, if_pos rfl, h2]
      rfl
    · filter_upwards [nd, c2.symm] with t h1 h2 i j
      show (N t).get i j + (C t).get i j = (N t).get j i + (C t).get j i
      rw [h1.2.2 i j, h2 i j]
    · exact (n2 i hi j hj).add (c2.lim i hi j hj)
  · obtain rfl := g3 rfl
    refine ⟨C, C, ?_, c2, c2⟩
    filter_upwards [c1] with t h1
    unfold generate_grand_resistance_matrix
    rw [h1, Option.bind_eq_bind, Option.bind_some]
    rfl

/-- **C95** (answers). If moreover the grand resistance matrix of `P0` is symmetric and positive definite, then every
input that is solved for `P0` is solved in all places near those of `P0`, and the motions and loads tend to those of
`P0`. -/
theorem C95_answers (hS0 : Symm R0.get (side P0)) (hR0 : PosDef R0.get (side P0)) (hd0 : R0.rows = side P0)
    {form : InputForm} {inp : Inputs} (hf : formAllowed form P0.Ns) (hsz : Sized P0.Ns P0.Nd inp) {out0 : Outputs}
    (ho : solveForm form false P0.Ns P0.Nd R0 inp = some out0) : ∃ (R C : β → NDMat) (out : β → Outputs),
    (∀ᶠ t in F, generate_grand_resistance_matrix T (P t) (last t) reg k dragM only mu bb = some (R t, C t) ∧
      solveForm form false P0.Ns P0.Nd (R t) inp = some (out t)) ∧
    ∀ i < side P0, Tendsto (fun t => motion P0.Ns P0.Nd (out t) i) F (𝓝 (motion P0.Ns P0.Nd out0 i)) ∧
      Tendsto (fun t => load P0.Ns P0.Nd (out t) i) F (𝓝 (load P0.Ns P0.Nd out0 i)) := by
  obtain ⟨R, C, e1, e2, -⟩ := C95_grand hA h0 hT hk hr hTab hl hG
  obtain ⟨out, o1, o2, o3⟩ := C78_continuous hf hsz (by
    filter_upwards [e2.dims, e2.symm] with t h1 h2
    exact ⟨h1.1, h1.2, fun i _ j _ => h2 i j⟩) hd0 hS0 hR0 e2.lim ho
  exact ⟨R, C, out, e1.and o1, fun i hi => ⟨o2 i hi, o3 i hi⟩⟩

end

/-- **C95** (shipped table). With the table that comes with the program and beads of one size that do not overlap,
everything above holds: every complete input is solved in all places near those of `P0`, and the motions and loads tend
to those found for `P0`, unless a pair of beads of `P0` is exactly at the range of the near field. -/
theorem C95_shipped (hA : Approaches F P P0) {a : ℝ} (ha : 0 < a) (hE : EqualBeads P0 a) (h0 : Sensible P0)
    (hS : Separate P0) {k : ℝ} (hk : 0 < k) (hr : ¬ AtRange k P0) {mu : ℝ} (hmu : 0 < mu) {bb : Bool}
    (hbb : bb = true ∨ P0.Nd = 0) (last : NDMat) {form : InputForm} {inp : Inputs} (hf : formAllowed form P0.Ns)
    (hsz : Sized P0.Ns P0.Nd inp) (hC : Complete form P0.Ns P0.Nd inp) :
    ∃ (R0 C0 : NDMat) (out0 : Outputs) (R C : β → NDMat) (out : β → Outputs),
    (generate_grand_resistance_matrix shippedTable P0 last true k false false mu bb = some (R0, C0) ∧
      solveForm form false P0.Ns P0.Nd R0 inp = some out0) ∧
    (∀ᶠ t in F, generate_grand_resistance_matrix shippedTable (P t) last true k false false mu bb = some (R t, C t) ∧
      solveForm form false P0.Ns P0.Nd (R t) inp = some (out t)) ∧
    ∀ i < side P0, Tendsto (fun t => motion P0.Ns P0.Nd (out t) i) F (𝓝 (motion P0.Ns P0.Nd out0 i)) ∧
      Tendsto (fun t => load P0.Ns P0.Nd (out t) i) F (𝓝 (load P0.Ns P0.Nd out0 i)) := by
  obtain ⟨R0, C0, g, s1, s2, s3⟩ := C86_solvable ha hE h0 hS hk hmu hbb last
  obtain ⟨out0, ho⟩ := s3 hf hsz hC
  have hTab := equal_tabulated ha hE k
  have hd0 : R0.rows = side P0 := by
    obtain ⟨-, g2, -⟩ := grand_some g
    obtain ⟨N, hN, rfl⟩ := g2 rfl
    obtain ⟨N', q1, q2, -⟩ := C20_symmetric h0 hk hTab mu bb
    obtain rfl := Option.some.inj (hN.symm.trans q1)
    exact q2
  obtain ⟨R, C, out, e1, e2⟩ := C95_answers hA h0 ⟨shipped_ne, shipped_ascending⟩ hk (fun _ => hr) hTab
    (last := fun _ => last) (last0 := last) (by simp) g s1 s2 hd0 hf hsz ho
  exact ⟨R0, C0, out0, R, C, out, ⟨g, ho⟩, e1, e2⟩

/-! ## Example: two unit spheres that come to the distance 3 -/

theorem apartP_approaches (r0 : ℝ) {F : Filter ℝ} (hF : F ≤ 𝓝 r0) : Approaches F apartP (apartP r0) := by
  refine ⟨fun _ => rfl, fun _ => rfl, fun t x hx => ?_, fun x hx k => ?_⟩
  · rw [apartP_equal t x hx, apartP_equal r0 x hx]
  · have : x < 2 := hx
    have hid : Tendsto (fun t : ℝ => t) F (𝓝 r0) := hF
    interval_cases x <;> fin_cases k <;> simp [centre, apartP, hid, tendsto_const_nhds]

theorem apartP_range {r k : ℝ} (hr : 0 ≤ r) (h : r ≠ 2 * k) : ¬ AtRange k (apartP r) := by
  rintro ⟨x, hx, y, hy, hxy, e⟩
  rw [apartP_equal r x hx, apartP_equal r y hy, apartP_len hr hy hx hxy.symm] at e
  exact h (by linarith)

/-- The spheres have the velocities `(1, 0, 0)` and `0`, no torques and no strain. -/
noncomputable def drivenPair : Inputs where
  Fa := [blank, blank]
  Ta := [num3 0, num3 0]
  Sa := [num33 0, num33 0]
  Fb := []
  DFb := []
  Ua := [num3 ![1, 0, 0], num3 0]
  Ea := [num33 0, num33 0]
  Ub := []
  HalfDUb := []

theorem drivenPair_sized : Sized 2 0 drivenPair := ⟨rfl, rfl, rfl, rfl, rfl, rfl, rfl, rfl⟩

theorem drivenPair_complete : Complete .ufte 2 0 drivenPair := by
  refine ⟨2, le_rfl, ?_⟩
  simp [drivenPair, Given3, Given33, num3, num33]

example : ∃ (R0 C0 : NDMat) (out0 : Outputs) (R C : ℝ → NDMat) (out : ℝ → Outputs),
    (generate_grand_resistance_matrix shippedTable (apartP 3) (NDMat.zeros 0 0) true 2 false false 1 true = some (R0, C0) ∧
      solveForm .ufte false 2 0 R0 drivenPair = some out0) ∧
    (∀ᶠ r in 𝓝 3, generate_grand_resistance_matrix shippedTable (apartP r) (NDMat.zeros 0 0) true 2 false false 1 true
        = some (R r, C r) ∧ solveForm .ufte false 2 0 (R r) drivenPair = some (out r)) ∧
    ∀ i < 22, Tendsto (fun r => motion 2 0 (out r) i) (𝓝 3) (𝓝 (motion 2 0 out0 i)) ∧
      Tendsto (fun r => load 2 0 (out r) i) (𝓝 3) (𝓝 (load 2 0 out0 i)) :=
  C95_shipped (apartP_approaches 3 le_rfl) one_pos (apartP_equal 3) (apartP_sensible (by norm_num))
    (apartP_separate (by norm_num)) (by norm_num) (apartP_range (by norm_num) (by norm_num)) one_pos (.inl rfl) _
    (by simp [formAllowed, apartP]) drivenPair_sized drivenPair_complete

end SD
