import Verif.Props.PeriodicNear
import Verif.Props.EwaldMatrix
import Verif.Props.LargeBoxGrand

/-!
# C76: the grand resistance matrix of a periodic box
-/

set_option autoImplicit false

namespace SD

open Spec Filter Topology

section
variable {n : ℕ} {T : ScalarTable} {input : Config → ℝ → ℝ → Vel → Option NDMat → Option UserInput} {bb : Bool}
  {S : Settings} {P : PosData} {last : NDMat} {reg : Bool} {u : UserInput} {R C : NDMat}

/-- The steps of the function. -/
theorem box_some (h : generate_grand_resistance_matrix_periodic (boxWorld n T input bb) S P last reg u = some (R, C)) :
    S.use_drag_Minfinity = false ∧
    (if reg then (Ewald.generate_Minfinity_periodic n P u.bl u.tr u.mu u.Ot u.Et bb).inv else some last) = some C ∧
    (S.use_Minfinity_only = false → ∃ N, generate_R2Bexact_periodic T P S.cutoff_factor u.mu u.bl u.tr u.Ot u.Et bb
      = some N ∧ R = C.add N) ∧
    (S.use_Minfinity_only = true → R = C) := by
  unfold generate_grand_resistance_matrix_periodic boxWorld at h
  dsimp only at h
  cases hS : S.use_drag_Minfinity <;> cases hU : S.use_Minfinity_only <;> cases reg <;> rw [hS, hU] at h <;>
    simp only [Option.bind_eq_bind, if_true, if_false, Bool.false_eq_true, Bool.true_eq_false, Option.bind_some,
      Option.bind_none, reduceCtorEq, Option.some.injEq, Prod.mk.injEq] at h ⊢ <;>
    rcases hN : generate_R2Bexact_periodic T P S.cutoff_factor u.mu u.bl u.tr u.Ot u.Et bb with _ | N <;>
    rcases hM : (Ewald.generate_Minfinity_periodic n P u.bl u.tr u.mu u.Ot u.Et bb).inv with _ | M <;>
    simp_all
  all_goals (obtain ⟨rfl, rfl⟩ := h; rfl)

/-- **C76** (two parts). The grand resistance matrix of a periodic box is the inverse of the far-field mobility matrix
of the box, or the matrix passed in if it is not to be regenerated, plus the near field of the box unless that is
switched off. There is no drag approximation: the matrix is never returned with that setting. -/
theorem C76_parts (h : generate_grand_resistance_matrix_periodic (boxWorld n T input bb) S P last reg u = some (R, C)) :
    S.use_drag_Minfinity = false ∧
    (S.use_Minfinity_only = false → ∃ N, generate_R2Bexact_periodic T P S.cutoff_factor u.mu u.bl u.tr u.Ot u.Et bb
      = some N ∧ ∀ i j, R.get i j = C.get i j + N.get i j) ∧
    (S.use_Minfinity_only = true → R = C) ∧
    (reg = false → C = last) ∧
    (reg = true → ∀ (v : ℕ → ℝ) (i : ℕ), i < side P →
      mulVec (side P) C.get (mulVec (side P)
        (Ewald.generate_Minfinity_periodic n P u.bl u.tr u.mu u.Ot u.Et bb).get v) i = v i ∧
      mulVec (side P) (Ewald.generate_Minfinity_periodic n P u.bl u.tr u.mu u.Ot u.Et bb).get
        (mulVec (side P) C.get v) i = v i) := by
  obtain ⟨h0, h1, h2, h3⟩ := box_some h
  refine ⟨h0, fun e => ?_, h3, ?_, ?_⟩
  · obtain ⟨N, hN, rfl⟩ := h2 e
    exact ⟨N, hN, fun i j => rfl⟩
  · rintro rfl
    exact (Option.some.inj h1).symm
  · rintro rfl v i hi
    rw [if_pos rfl] at h1
    have := inv_mulVec h1 v (i := i) (by rw [(Minfinity_periodic_dims n P _ _ _ _ _ bb).1]; exact hi)
    rwa [(Minfinity_periodic_dims n P _ _ _ _ _ bb).1] at this

/-- **C76** (stops). There is no matrix exactly if the drag approximation is asked for, or the far-field mobility is to
be inverted and some forces cause no motion, or the near field is switched on and fails. -/
theorem C76_stops :
    generate_grand_resistance_matrix_periodic (boxWorld n T input bb) S P last reg u = none ↔
      S.use_drag_Minfinity = true ∨
      (reg = true ∧ ∃ v : ℕ → ℝ, (∃ i < side P, v i ≠ 0) ∧ ∀ i < side P,
        mulVec (side P) (Ewald.generate_Minfinity_periodic n P u.bl u.tr u.mu u.Ot u.Et bb).get v i = 0) ∨
      (S.use_Minfinity_only = false ∧
        generate_R2Bexact_periodic T P S.cutoff_factor u.mu u.bl u.tr u.Ot u.Et bb = none) := by
  have hd := Minfinity_periodic_dims n P u.bl u.tr u.mu u.Ot u.Et bb
  have hinv := inv_isSome (M := Ewald.generate_Minfinity_periodic n P u.bl u.tr u.mu u.Ot u.Et bb) (by rw [hd.1, hd.2])
  rw [hd.1] at hinv
  have hnone : (Ewald.generate_Minfinity_periodic n P u.bl u.tr u.mu u.Ot u.Et bb).inv = none ↔
      ∃ v : ℕ → ℝ, (∃ i < side P, v i ≠ 0) ∧ ∀ i < side P,
        mulVec (side P) (Ewald.generate_Minfinity_periodic n P u.bl u.tr u.mu u.Ot u.Et bb).get v i = 0 := by
    rw [← not_iff_not]
    rw [← Ne, Option.ne_none_iff_exists']
    rw [hinv]
    push Not
    constructor
    · intro h v ⟨i, hi, hv⟩
      by_contra hc
      push Not at hc
      exact hv (h v hc i hi)
    · intro h v hv i hi
      by_contra hc
      obtain ⟨j, hj, hne⟩ := h v ⟨i, hi, hc⟩
      exact hne (hv j hj)
  rw [← hnone]
  unfold generate_grand_resistance_matrix_periodic boxWorld
  dsimp only
  cases S.use_drag_Minfinity <;> cases S.use_Minfinity_only <;> cases reg <;>
    rcases generate_R2Bexact_periodic T P S.cutoff_factor u.mu u.bl u.tr u.Ot u.Et bb with _ | N <;>
    rcases (Ewald.generate_Minfinity_periodic n P u.bl u.tr u.mu u.Ot u.Et bb).inv with _ | M <;>
    simp

/-- **C76** (symmetric). The matrix is symmetric if the one kept from earlier is, where that is used. -/
theorem C76_symmetric {B : Mat3} (hL : ∀ i, u.bl i < u.tr i) (hB : FoldedBox (fun i => u.tr i - u.bl i) u.Ot u.Et B)
    (hs : Spans B) (hP : CellSensible B P) (hk : 0 ≤ S.cutoff_factor) (hT : CellTabulated B T.lam P S.cutoff_factor)
    (hl : reg = false → ∀ i j, last.get i j = last.get j i)
    (h : generate_grand_resistance_matrix_periodic (boxWorld n T input bb) S P last reg u = some (R, C)) (i j : ℕ) :
    R.get i j = R.get j i ∧ C.get i j = C.get j i := by
  obtain ⟨-, h1, h2, h3⟩ := box_some h
  have hC : ∀ i j, C.get i j = C.get j i := by
    cases reg
    · obtain rfl := Option.some.inj h1
      exact hl rfl
    · rw [if_pos rfl] at h1
      exact inv_symm h1 fun i j => (C54_symmetric n _ _ _ _ P _ bb i j).2.1
  refine ⟨?_, hC i j⟩
  cases hU : S.use_Minfinity_only
  · obtain ⟨N, hN, rfl⟩ := h2 hU
    obtain ⟨-, -, N', -, -, hN', -, -, hs', -⟩ := C75_symmetric hL hB hs hP hk hT u.mu bb
    obtain rfl := Option.some.inj (hN.symm.trans hN')
    show C.get i j + N.get i j = C.get j i + N.get j i
    rw [hC i j, hs' i j]
  · rw [h3 hU]
    exact hC i j

/-- **C76** (translation). In a box in simple shear or at rest, moving every particle by the same vector changes
nothing, nor whether there is a matrix. -/
theorem C76_translation (hL : ∀ i, u.bl i < u.tr i) (hsh : ∃ a b g, a ≠ b ∧ IsShear u.Ot u.Et a b g) (t : Vec3) :
    generate_grand_resistance_matrix_periodic (boxWorld n T input bb) S (shift P t) last reg u
      = generate_grand_resistance_matrix_periodic (boxWorld n T input bb) S P last reg u := by
  obtain ⟨a, b, g, hab, hs⟩ := hsh
  have hside : ∀ i, 0 < u.tr i - u.bl i := fun i => by linarith [hL i]
  have f : FoldedBox (fun i => u.tr i - u.bl i) u.Ot u.Et (Ewald.boxBasis u.bl u.tr u.Ot u.Et) :=
    shear_basis_folded hside
  have sp := (C30_simple_shear hside hab hs f).1
  have hbox : SameInBox (Ewald.boxBasis u.bl u.tr u.Ot u.Et) t P (shift P t) :=
    ⟨rfl, rfl, rfl, rfl, fun x _ => ⟨fun _ => 0, by rw [centre_shift]; funext m; simp [combine]⟩⟩
  unfold generate_grand_resistance_matrix_periodic boxWorld
  dsimp only
  rw [C54_translation, C75_images hL f sp hbox]

theorem near_box_visc (T : ScalarTable) (P : PosData) (k c mu : ℝ) (bl tr Ot : Vec3) (Et : Mat3) (bb : Bool) :
    generate_R2Bexact_periodic T P c (k * mu) bl tr Ot Et bb
      = (generate_R2Bexact_periodic T P c mu bl tr Ot Et bb).map (NDMat.smul k) := by
  unfold generate_R2Bexact_periodic R2BexactOfPairs
  rcases close_particles_periodic (P.Ns + 2 * P.Nd) P.beadPos P.beadSize c bl tr Ot Et with _ | l
  · rfl
  · simp only [Option.bind_eq_bind, Option.bind_some]
    rcases generate_R2Bexact_loop T _ P.Ns P.Nd P.beadSize bb _ with _ | M
    · rfl
    · simp only [Option.bind_some]
      split_ifs
      · rw [Option.map_some, smul_smul_mat]
      · rw [Option.map_some, smul_smul_mat]

theorem inv_congr {M M' : NDMat} (hr : M'.rows = M.rows) (hc : M'.cols = M.cols) (hsq : M.rows = M.cols)
    (h : ∀ i < M.rows, ∀ j < M.rows, M'.get i j = M.get i j) : M'.inv = M.inv := by
  obtain ⟨r, c, g⟩ := M
  obtain ⟨r', c', g'⟩ := M'
  obtain rfl : r' = r := hr
  obtain rfl : c' = c := hc
  have hsq' : r' = c' := hsq
  subst hsq'
  have e : (NDMat.mk r' r' g').toMatrix = (NDMat.mk r' r' g).toMatrix := by
    ext a b
    exact h a a.2 b b.2
  unfold NDMat.inv
  simp only [e]

/-- The same input with `k` times the viscosity. -/
def thicker (k : ℝ) (u : UserInput) : UserInput := { u with mu := k * u.mu }

theorem far_box_visc (hP : Boxed n u.bl u.tr u.Ot u.Et P) {k : ℝ} {i j : ℕ} (hi : i < side P) (hj : j < side P) :
    (Ewald.generate_Minfinity_periodic n P u.bl u.tr (k * u.mu) u.Ot u.Et bb).get i j
      = k⁻¹ * (Ewald.generate_Minfinity_periodic n P u.bl u.tr u.mu u.Ot u.Et bb).get i j := by
  have hb : ∀ i < side P, ∀ j < side P, (boxMatrix n u.bl u.tr u.Ot u.Et P (k * u.mu) bb).get i j
      = k⁻¹ * (boxMatrix n u.bl u.tr u.Ot u.Et P u.mu bb).get i j := fun i hi j hj => by
    rw [C54_viscosity hP u.mu bb k hi hj, div_eq_inv_mul]
  unfold boxMatrix at hb
  unfold Ewald.generate_Minfinity_periodic
  dsimp only
  split_ifs with h
  · have c1 : ∀ mu, (Ewald.generate_Minfinity_loop (Ewald.boxLattice n u.bl u.tr u.Ot u.Et)
        (NDMat.zeros (11 * P.Ns + 6 * P.Nd) (11 * P.Ns + 6 * P.Nd)) P (1 / (8 * Real.pi * mu)) mu bb).cols = side P :=
      fun mu => (Ewald.loop_dims _ P _ mu bb _).2
    simp only [NDMat.dot, NDMat.transpose, c1, Finset.mul_sum, Finset.sum_mul]
    refine Finset.sum_congr rfl fun a ha => Finset.sum_congr rfl fun b hb' => ?_
    have := hb b (Finset.mem_range.mp hb') a (Finset.mem_range.mp ha)
    unfold side at this
    rw [this]
    ring
  · exact hb i hi j hj

/-- **C76** (viscosity). Multiplying the viscosity by `k` (and the matrix kept from an earlier frame, if there is one)
multiplies the grand resistance matrix by `k`. -/
theorem C76_viscosity (hP : Boxed n u.bl u.tr u.Ot u.Et P) {k : ℝ} (hk : 0 < k)
    (h : generate_grand_resistance_matrix_periodic (boxWorld n T input bb) S P last reg u = some (R, C)) :
    ∃ R' C', generate_grand_resistance_matrix_periodic (boxWorld n T input bb) S P (NDMat.smul k last) reg (thicker k u)
        = some (R', C') ∧ (∀ i j, R'.get i j = k * R.get i j) ∧ ∀ i j, C'.get i j = k * C.get i j := by
  obtain ⟨h0, h1, h2, h3⟩ := box_some h
  have hd := Minfinity_periodic_dims n P u.bl u.tr u.mu u.Ot u.Et bb
  have hd' := Minfinity_periodic_dims n P u.bl u.tr (k * u.mu) u.Ot u.Et bb
  have e1 : (if reg then (Ewald.generate_Minfinity_periodic n P u.bl u.tr (k * u.mu) u.Ot u.Et bb).inv
      else some (NDMat.smul k last)) = some (NDMat.smul k C) := by
    cases reg
    · obtain rfl := Option.some.inj h1
      rfl
    · rw [if_pos rfl] at h1 ⊢
      rw [← inv_congr (M' := NDMat.smul k⁻¹ (Ewald.generate_Minfinity_periodic n P u.bl u.tr u.mu u.Ot u.Et bb))
        (by rw [hd'.1]; exact hd.1) (by rw [hd'.2]; exact hd.2) (by rw [hd'.1, hd'.2])
        (fun i hi j hj => by rw [hd'.1] at hi hj; exact (far_box_visc hP hi hj).symm), inv_smul' _ hk.ne', h1]
      rfl
  have key : ∀ X, (S.use_Minfinity_only = false → ∃ N, generate_R2Bexact_periodic T P S.cutoff_factor (k * u.mu) u.bl
      u.tr u.Ot u.Et bb = some N ∧ X = (NDMat.smul k C).add N) → (S.use_Minfinity_only = true → X = NDMat.smul k C) →
      generate_grand_resistance_matrix_periodic (boxWorld n T input bb) S P (NDMat.smul k last) reg (thicker k u)
        = some (X, NDMat.smul k C) := by
    intro X hX1 hX2
    unfold generate_grand_resistance_matrix_periodic boxWorld thicker
    dsimp only
    rw [h0, if_pos rfl, e1, Option.bind_eq_bind, Option.bind_some]
    cases hU : S.use_Minfinity_only
    · obtain ⟨N, hN, rfl⟩ := hX1 hU
      rw [if_pos rfl, hN]
      rfl
    · rw [hX2 hU]
      rfl
  refine ⟨NDMat.smul k R, NDMat.smul k C, key _ (fun hU => ?_) (fun hU => by rw [h3 hU]), fun _ _ => rfl, fun _ _ => rfl⟩
  obtain ⟨N, hN, rfl⟩ := h2 hU
  exact ⟨NDMat.smul k N, by rw [near_box_visc, hN]; rfl, (smul_add_mat k C N).symm⟩

/-- **C76** (solvable). If the far field of the box takes energy out of every motion, and the table does not feed energy
into any pair, then there is a grand resistance matrix, it is positive definite, and every complete input is solved. -/
theorem C76_solvable {B : Mat3} (hL : ∀ i, u.bl i < u.tr i) (hB : FoldedBox (fun i => u.tr i - u.bl i) u.Ot u.Et B)
    (hs : Spans B) (hP : CellSensible B P) (hk : 0 ≤ S.cutoff_factor) (hT : CellTabulated B T.lam P S.cutoff_factor)
    (hD : TableDissipates T) (hmu : 0 ≤ u.mu) (hS : S.use_drag_Minfinity = false)
    (hM : PosDef (Ewald.generate_Minfinity_periodic n P u.bl u.tr u.mu u.Ot u.Et bb).get (side P)) :
    ∃ R C, generate_grand_resistance_matrix_periodic (boxWorld n T input bb) S P last true u = some (R, C) ∧
      Symm R.get (side P) ∧ PosDef R.get (side P) ∧
      ∀ {form : InputForm} {inp : Inputs}, formAllowed form P.Ns → Sized P.Ns P.Nd inp →
        Complete form P.Ns P.Nd inp → ∃ out, solveForm form false P.Ns P.Nd R inp = some out := by
  have hd := Minfinity_periodic_dims n P u.bl u.tr u.mu u.Ot u.Et bb
  obtain ⟨C, hC, hr, hc, hp⟩ := Perturb.inverse_posDef hd.1 hd.2 hM
  obtain ⟨N, hN, n1, n2, n3, n4⟩ := C75_dissipates hL hB hs hP hk hT hD hmu bb
  have hCs := inv_symm hC fun i j => (C54_symmetric n _ _ _ _ P _ bb i j).2.1
  have hfin : ∀ R, R.rows = side P → R.cols = side P → Symm R.get (side P) → PosDef R.get (side P) →
      ∀ {form : InputForm} {inp : Inputs}, formAllowed form P.Ns → Sized P.Ns P.Nd inp →
        Complete form P.Ns P.Nd inp → ∃ out, solveForm form false P.Ns P.Nd R inp = some out :=
    fun R r1 r2 r3 r4 {form inp} hf hz hcm => C09_spd_succeeds hf hz r1 r2 r3 r4 hcm
  cases hU : S.use_Minfinity_only
  · have hadd : ∀ (w : ℕ → ℝ) (i : ℕ), mulVec (side P) (C.add N).get w i
        = mulVec (side P) C.get w i + mulVec (side P) N.get w i := by
      intro w i
      unfold mulVec
      rw [← Finset.sum_add_distrib]
      exact Finset.sum_congr rfl fun j _ => by simp only [NDMat.add]; ring
    have hsy : Symm (C.add N).get (side P) := fun i _ j _ => by
      show C.get i j + N.get i j = C.get j i + N.get j i
      rw [n3 i j, hCs i j]
    have hpd : PosDef (C.add N).get (side P) := by
      rw [posDef_iff]
      intro w hw
      refine lt_of_lt_of_le (posDef_iff.mp hp w hw) ?_
      simp only [hadd, mul_add, Finset.sum_add_distrib]
      linarith [n4 w]
    refine ⟨C.add N, C, ?_, hsy, hpd, hfin (C.add N) hr hc hsy hpd⟩
    unfold generate_grand_resistance_matrix_periodic boxWorld
    dsimp only
    rw [hS, hU]
    simp only [if_true, Option.bind_eq_bind]
    rw [hC, Option.bind_some, hN, Option.bind_some]
  · have hsy : Symm C.get (side P) := fun i _ j _ => hCs i j
    refine ⟨C, C, ?_, hsy, hp, hfin _ hr hc hsy hp⟩
    unfold generate_grand_resistance_matrix_periodic boxWorld
    dsimp only
    rw [hS, hU]
    simp only [if_true, Option.bind_eq_bind]
    rw [hC, Option.bind_some]
    rfl

end

/-! A sphere between two dumbbells in a large box -/

/-- What is in the cell is a box vector only if it is zero. -/
theorem zero_of_inCell {B : Mat3} (hB : Spans B) {v : Vec3} (h1 : InCell B v) (h2 : InLattice B v) : v = 0 := by
  obtain ⟨c, hc, rfl⟩ := h1
  obtain ⟨m, hm⟩ := h2
  have e := combine_inj hB hm
  have hz : c = fun _ => 0 := by
    funext i
    have hi := congrFun e i
    obtain ⟨a, b⟩ := hc i
    rw [hi] at a b ⊢
    have a' : (-1 : ℝ) < m i := by linarith
    have b' : (m i : ℝ) < 1 := by linarith
    have : m i = 0 := by
      have a2 : (-1 : ℤ) < m i := by exact_mod_cast a'
      have b2 : m i < (1 : ℤ) := by exact_mod_cast b'
      omega
    rw [this]; simp
  rw [hz]; funext i; simp [combine]

/-- Sensible particles are sensible in every large enough box. -/
theorem cellSensible_eventually {B : Mat3} (hB : Spans B) {P : PosData} (hP : Sensible P) :
    ∀ᶠ L : ℝ in atTop, CellSensible (fun k i => L * B k i) P := by
  have hc : ∀ᶠ L : ℝ in atTop, ∀ x ∈ Finset.range (beads P), ∀ y ∈ Finset.range (beads P),
      InCell (fun k i => L * B k i) fun m => centre P y m - centre P x m :=
    (eventually_all_finset _).mpr fun x _ => (eventually_all_finset _).mpr fun y _ => inCell_eventually hB _
  filter_upwards [hc, eventually_gt_atTop 0] with L hL h0
  refine ⟨hP.radius_pos, fun x hx y hy hxy hlat => ?_⟩
  have hs : Spans fun k i => L * B k i := by
    unfold Spans at hB ⊢
    have e : L * B 0 0 * (L * B 1 1 * (L * B 2 2) - L * B 1 2 * (L * B 2 1))
        - L * B 0 1 * (L * B 1 0 * (L * B 2 2) - L * B 1 2 * (L * B 2 0))
        + L * B 0 2 * (L * B 1 0 * (L * B 2 1) - L * B 1 1 * (L * B 2 0))
        = L ^ 3 * (B 0 0 * (B 1 1 * B 2 2 - B 1 2 * B 2 1) - B 0 1 * (B 1 0 * B 2 2 - B 1 2 * B 2 0)
          + B 0 2 * (B 1 0 * B 2 1 - B 1 1 * B 2 0)) := by ring
    rw [e]
    exact mul_ne_zero (pow_ne_zero 3 h0.ne') hB
  have hz := zero_of_inCell hs (hL x (Finset.mem_range.mpr hx) y (Finset.mem_range.mpr hy)) hlat
  have hl := hP.apart y hy x hx hxy.symm
  rw [show (fun i => centre P y i - centre P x i) = 0 from hz] at hl
  norm_num [len] at hl

/-- In every large enough box: there is a matrix, it is positive definite and solves every complete input. -/
example (n : ℕ) (input : Config → ℝ → ℝ → Vel → Option NDMat → Option UserInput) (last : NDMat) :
    ∀ᶠ L in atTop, ∃ R C, generate_grand_resistance_matrix_periodic (boxWorld n dampT input true)
        (starSettings .euler 1) starP last true (grow starShear ![2, 1, 1] L) = some (R, C) ∧
      PosDef R.get 23 ∧ ∃ out, solveForm .ufte false 1 2 R starInp = some out := by
  have hd : ∀ i, (0 : ℝ) < (![2, 1, 1] : Vec3) i := fun i => by fin_cases i <;> simp
  obtain ⟨a, b, g, hab, hs⟩ := skew_is_shear
  have f1 : FoldedBox (fun i => (![2, 1, 1] : Vec3) i - (0 : Vec3) i) skewO skewE (Ewald.boxBasis 0 ![2, 1, 1] skewO skewE) :=
    shear_basis_folded fun i => by simpa using hd i
  have s1 := (C30_simple_shear (fun i => by simpa using hd i) hab hs f1).1
  filter_upwards [C77_mobility hd skew_is_shear starP_sensible n 0 starP_separate (show (0 : ℝ) < 3 by norm_num) (.inl rfl)
    starP_one_size, cellSensible_eventually s1 starP_sensible, eventually_gt_atTop 0] with L hM hC h0
  have hside : ∀ i, 0 < farCorner 0 ![2, 1, 1] L i - (0 : Vec3) i := fun i => by
    unfold farCorner; have := mul_pos h0 (hd i); linarith
  have f2 : FoldedBox (fun i => farCorner 0 ![2, 1, 1] L i - (0 : Vec3) i) skewO skewE
      (Ewald.boxBasis 0 (farCorner 0 ![2, 1, 1] L) skewO skewE) := shear_basis_folded hside
  have s2 := (C30_simple_shear hside hab hs f2).1
  have e : Ewald.boxBasis 0 (farCorner 0 ![2, 1, 1] L) skewO skewE
      = fun k i => L * Ewald.boxBasis 0 ![2, 1, 1] skewO skewE k i := Ewald.basis_scale h0 0 hd skewO skewE
  obtain ⟨R, C, h1, -, h2, h3⟩ := C76_solvable (n := n) (T := dampT) (input := input) (bb := true)
    (S := starSettings .euler 1) (P := starP) (last := last) (u := grow starShear ![2, 1, 1] L)
    (B := Ewald.boxBasis 0 (farCorner 0 ![2, 1, 1] L) skewO skewE) (fun i => by
      have := hside i
      show (0 : Vec3) i < farCorner 0 ![2, 1, 1] L i
      linarith) f2 s2 (by rw [e]; exact hC) (by norm_num [starSettings])
    (fun x hx y hy _ => by
      rw [starP_radius hx, starP_radius hy]
      exact ⟨1, by norm_num [dampT], by norm_num⟩) dampT_dissipates (show (0 : ℝ) ≤ 3 by norm_num) rfl hM
  exact ⟨R, C, h1, h2, h3 (form := .ufte) ⟨fun h => absurd h (by simp [starP]), fun _ => by simp⟩ starInp_sized
    starInp_complete_ufte⟩

/-- The viscosity: the same particles in a box of side 10 that `demoP_boxed` describes. -/
example {S : Settings} {T : ScalarTable} {input : Config → ℝ → ℝ → Vel → Option NDMat → Option UserInput} {bb : Bool}
    {last R C : NDMat} {reg : Bool} {u : UserInput} (h1 : u.bl = 0) (h2 : u.tr = fun i => (0 : Vec3) i + 10)
    (h3 : u.Ot = 0) (h4 : u.Et = 0)
    (h : generate_grand_resistance_matrix_periodic (boxWorld 2 T input bb) S demoP last reg u = some (R, C)) :
    ∃ R' C', generate_grand_resistance_matrix_periodic (boxWorld 2 T input bb) S demoP (NDMat.smul 3 last) reg (thicker 3 u)
        = some (R', C') ∧ (∀ i j, R'.get i j = 3 * R.get i j) ∧ ∀ i j, C'.get i j = 3 * C.get i j :=
  C76_viscosity (by rw [h1, h2, h3, h4]; exact demoP_boxed) (by norm_num) h

end SD
