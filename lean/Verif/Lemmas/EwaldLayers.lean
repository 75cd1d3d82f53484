import Verif.Lemmas.LatticeSum
import Verif.Lemmas.EwaldMatrix
import Verif.Props.EwaldBox
import Mathlib.Analysis.Normed.Group.Tannery

/-!
# The sums over images and waves as the number of layers grows
-/

set_option autoImplicit false

namespace SD.Ewald

open Spec Filter Topology

/-! ## Terms of the infinite sums -/

theorem nearJ_response (lamb a b : ℝ) (l1 l2 : Load) {y : Vec3} (hy : y ≠ 0) :
    greenResponse (nearJ lamb) a b l1 l2 y = nearResp lamb a b l1 l2 y := by
  have e : imageSum lamb [0] = nearJ lamb := by
    funext i j r
    simp [imageSum]
  have h := imageSum_response lamb a b [0] l1 l2 (r := y) (by
    intro x hx
    rw [List.mem_singleton.mp hx]
    simpa using hy)
  rw [e] at h
  simpa using h

theorem oneWave_response (lamb a b : ℝ) (l1 l2 : Load) (r k : Vec3) :
    greenResponse (oneWave lamb k) a b l1 l2 r = waveResp lamb a b l1 l2 r k := by
  have e : waveSum lamb 1 [k] = oneWave lamb k := by
    funext i j r
    simp [waveSum, oneWave]
  have h := waveSum_response lamb 1 a b [k] l1 l2 r
  rw [e] at h
  simpa using h

/-! ## The two lattices -/

theorem inLattice_grid {B : Mat3} (v : Vec3) : InLattice B v ↔ ∃ g, gridVec B g = v := by
  constructor
  · rintro ⟨n, rfl⟩; exact ⟨n, gridVec_combine B n⟩
  · rintro ⟨n, rfl⟩; exact ⟨n, gridVec_combine B n⟩

theorem gridVec_inj {B : Mat3} (hB : Spans B) {g g' : Fin 3 → ℤ} (e : gridVec B g = gridVec B g') : g = g' := by
  have : gridVec B (g - g') = 0 := by rw [gridVec_sub, e, sub_self]
  exact sub_eq_zero.mp (independent_of_spans hB _ this)

/-- The images, numbered. -/
noncomputable def imagesEquiv {B : Mat3} (hB : Spans B) : (Fin 3 → ℤ) ≃ {v // InLattice B v} :=
  Equiv.ofBijective (fun g => ⟨gridVec B g, (inLattice_grid _).mpr ⟨g, rfl⟩⟩)
    ⟨fun g g' e => gridVec_inj hB (congrArg Subtype.val e),
      fun v => by
        obtain ⟨g, hg⟩ := (inLattice_grid v.1).mp v.2
        exact ⟨g, Subtype.ext hg⟩⟩

theorem tsum_images {B : Mat3} (hB : Spans B) (F : Vec3 → ℝ) :
    ∑' v : {v // InLattice B v}, F v.1 = ∑' g, F (gridVec B g) :=
  ((imagesEquiv hB).tsum_eq fun v => F v.1).symm

/-- Determinant of the box. -/
def vol (B : Mat3) : ℝ := B 0 0 * (B 1 1 * B 2 2 - B 1 2 * B 2 1) - B 0 1 * (B 1 0 * B 2 2 - B 1 2 * B 2 0)
    + B 0 2 * (B 1 0 * B 2 1 - B 1 1 * B 2 0)

section
variable {B : Mat3} {L : ℝ} (hV : vol B = L ^ 3) (hL : L ≠ 0)
include hV hL

theorem spans_of_vol : Spans B := by
  change vol B ≠ 0
  rw [hV]; exact pow_ne_zero _ hL

theorem dual_inner (g : Fin 3 → ℤ) (a : Fin 3) :
    inner3 (gridVec (k_basis_vectors L B) g) (B a) = 2 * Real.pi * (![-g 1, -g 0, g 2] a : ℤ) := by
  have hq : 2 * Real.pi * (L ^ 3)⁻¹ * vol B = 2 * Real.pi := by
    rw [hV]; exact inv_mul_cancel_right₀ (pow_ne_zero _ hL) _
  simp only [inner3, gridVec, vecMat3, k_basis_vectors, Fin.sum_univ_three, npCross, Matrix.cons_val_zero,
    Matrix.cons_val_one, Matrix.cons_val]
  generalize 2 * Real.pi * (L ^ 3)⁻¹ = q at hq ⊢
  rw [← hq, vol]
  fin_cases a <;> simp <;> ring

omit hV hL in
theorem inner_combine (k : Vec3) (B : Mat3) (c : Vec3) :
    inner3 k (combine B c) = c 0 * inner3 k (B 0) + c 1 * inner3 k (B 1) + c 2 * inner3 k (B 2) := by
  simp only [inner3, combine, Fin.sum_univ_three]; ring

omit hV hL in
/-- A vector is determined by its products with the edges. -/
theorem inner_ext {B : Mat3} (hB : Spans B) {k k' : Vec3} (h : ∀ a, inner3 k (B a) = inner3 k' (B a)) : k = k' := by
  have hdet := (spans_iff B).mp hB
  have hu : IsUnit (Matrix.of B) := (Matrix.isUnit_iff_isUnit_det _).mpr (isUnit_iff_ne_zero.mpr hdet)
  refine Matrix.mulVec_injective_iff_isUnit.mpr hu ?_
  funext a
  have := h a
  simp only [inner3] at this
  simp only [Matrix.mulVec, dotProduct, Matrix.of_apply]
  simpa only [mul_comm] using this

theorem wave_mem {g : Fin 3 → ℤ} (hg : g ≠ 0) : IsWave B (gridVec (k_basis_vectors L B) g) := by
  refine ⟨fun e => hg ?_, ?_⟩
  · have h := dual_inner hV hL g
    rw [e] at h
    have hz : ∀ a, (![-g 1, -g 0, g 2] a : ℤ) = 0 := by
      intro a
      have h1 := h a
      have : inner3 0 (B a) = 0 := by simp [inner3]
      rw [this] at h1
      have h2 : ((![-g 1, -g 0, g 2] a : ℤ) : ℝ) = 0 := by
        rcases mul_eq_zero.mp h1.symm with h3 | h3
        · exact absurd h3 (by positivity)
        · exact h3
      exact_mod_cast h2
    have h0 := hz 0; have h1 := hz 1; have h2 := hz 2
    simp at h0 h1 h2
    funext i; fin_cases i
    · exact h1
    · exact h0
    · exact h2
  · rintro v ⟨m, rfl⟩
    refine ⟨-(g 1 * m 0) - g 0 * m 1 + g 2 * m 2, ?_⟩
    rw [inner_combine, dual_inner hV hL, dual_inner hV hL, dual_inner hV hL]
    simp
    ring

theorem wave_exists {k : Vec3} (hk : IsWave B k) : ∃ g, g ≠ 0 ∧ gridVec (k_basis_vectors L B) g = k := by
  have hB := spans_of_vol hV hL
  have he : ∀ a, InLattice B (B a) := by
    intro a
    refine ⟨fun b => if b = a then 1 else 0, ?_⟩
    funext i
    fin_cases a <;> simp [combine]
  choose z hz using fun a => hk.2 _ (he a)
  have e : gridVec (k_basis_vectors L B) ![-z 1, -z 0, z 2] = k := by
    refine inner_ext hB fun a => ?_
    rw [dual_inner hV hL, hz a]
    fin_cases a <;> simp
  refine ⟨_, fun h0 => hk.1 ?_, e⟩
  rw [← e, h0, gridVec_zero]

theorem spans_dual : Spans (k_basis_vectors L B) := by
  have hq : vol (k_basis_vectors L B) = -((2 * Real.pi * (L ^ 3)⁻¹) ^ 3 * (vol B) ^ 2) := by
    simp only [vol, k_basis_vectors, npCross, Matrix.cons_val_zero, Matrix.cons_val_one, Matrix.cons_val]
    ring
  change vol _ ≠ 0
  rw [hq, hV]
  refine neg_ne_zero.mpr ?_
  have : L ^ 3 ≠ 0 := pow_ne_zero _ hL
  have := Real.pi_pos.ne'
  positivity

/-- The waves, numbered. -/
noncomputable def wavesEquiv : {g : Fin 3 → ℤ // g ≠ 0} ≃ {k // IsWave B k} :=
  Equiv.ofBijective (fun g => ⟨gridVec (k_basis_vectors L B) g.1, wave_mem hV hL g.2⟩)
    ⟨fun g g' e => Subtype.ext (gridVec_inj (spans_dual hV hL) (congrArg Subtype.val e)),
      fun k => by
        obtain ⟨g, h0, hg⟩ := wave_exists hV hL k.2
        exact ⟨⟨g, h0⟩, Subtype.ext hg⟩⟩

theorem tsum_waves (F : Vec3 → ℝ) :
    ∑' k : {k // IsWave B k}, F k.1 = ∑' g, if g = 0 then 0 else F (gridVec (k_basis_vectors L B) g) := by
  rw [← (wavesEquiv hV hL).tsum_eq fun k => F k.1]
  have := tsum_subtype {g : Fin 3 → ℤ | g ≠ 0} fun g => F (gridVec (k_basis_vectors L B) g)
  refine this.trans (tsum_congr fun g => ?_)
  by_cases hg : g = 0
  · simp [hg]
  · rw [if_neg hg, Set.indicator_of_mem (show g ∈ {g : Fin 3 → ℤ | g ≠ 0} from hg)]

end

/-! ## The finite sums -/

section
variable (bl tr Ot : Vec3) (Et : Mat3)

/-- Edge of the cube of the same volume. -/
noncomputable abbrev boxL : ℝ := (boxLattice 0 bl tr Ot Et).L

/-- Splitting parameter. -/
noncomputable abbrev boxLamb : ℝ := (boxLattice 0 bl tr Ot Et).lamb

/-- The layers used. -/
noncomputable def layer (n : ℕ) : Finset (Fin 3 → ℤ) :=
  ((gridpoints n).filter fun g => decide (norm3 (gridVec (boxBasis bl tr Ot Et) g)
      ≤ 1.4142 * n * boxL bl tr Ot Et)).toFinset

theorem images_sum (n : ℕ) (F : Vec3 → ℝ) :
    ((boxLattice n bl tr Ot Et).X.map F).sum = ∑ g ∈ layer bl tr Ot Et n, F (gridVec (boxBasis bl tr Ot Et) g) := by
  rw [boxLattice_X, List.map_map, layer, List.sum_toFinset _ ((gridpoints_nodup n).filter _)]
  rfl

theorem filter_sum {α : Type} (l : List α) (q : α → Bool) (F : α → ℝ) :
    ((l.filter q).map F).sum = (l.map fun x => if q x then F x else 0).sum := by
  induction l with
  | nil => rfl
  | cons x l ih => by_cases h : q x <;> simp [h, ih]

section
variable {bl tr Ot Et}
variable (hB : Spans (boxBasis bl tr Ot Et))
include hB

theorem grid_pos (g : Fin 3 → ℤ) : decide (norm3 (gridVec (boxBasis bl tr Ot Et) g) > 0) = decide (g ≠ 0) := by
  rw [decide_eq_decide, norm3_pos_iff]
  constructor
  · rintro h rfl; exact h (gridVec_zero _)
  · intro h e; exact h (independent_of_spans hB _ e)

theorem dash_sum (n : ℕ) (F : Vec3 → ℝ) : ((boxLattice n bl tr Ot Et).Xdash.map F).sum
    = ∑ g ∈ layer bl tr Ot Et n, if g = 0 then 0 else F (gridVec (boxBasis bl tr Ot Et) g) := by
  rw [Lattice.Xdash, filter_sum, images_sum]
  refine Finset.sum_congr rfl fun g _ => ?_
  rw [grid_pos hB]
  by_cases hg : g = 0 <;> simp [hg]

theorem waves_sum (n : ℕ) (F : Vec3 → ℝ) : ((boxLattice n bl tr Ot Et).K.map F).sum
    = ∑ g ∈ layer bl tr Ot Et n, if g = 0 then 0 else
      F (gridVec (k_basis_vectors (boxL bl tr Ot Et) (boxBasis bl tr Ot Et)) g) := by
  have hK : (boxLattice n bl tr Ot Et).K = ((gridpoints n).filter fun g =>
      decide (norm3 (gridVec (boxBasis bl tr Ot Et) g) ≤ 1.4142 * n * boxL bl tr Ot Et)
        && decide (norm3 (gridVec (boxBasis bl tr Ot Et) g) > 0)).map
      (gridVec (k_basis_vectors (boxL bl tr Ot Et) (boxBasis bl tr Ot Et))) := rfl
  rw [hK, List.map_map, layer, List.sum_toFinset _ ((gridpoints_nodup n).filter _), filter_sum, filter_sum]
  congr 1
  refine List.map_congr_left fun g _ => ?_
  rw [grid_pos hB]
  by_cases hg : g = 0 <;> simp [hg]

end

variable {bl tr Ot Et}

theorem layer_far (h : ∀ i, bl i < tr i) : ∃ κ > 0, ∀ n g, 1 ≤ n → g ∉ layer bl tr Ot Et n → κ * n ≤ ‖g‖ := by
  have hL := boxLattice_L_nonneg 0 bl tr Ot Et h
  obtain ⟨M, hM, hb⟩ := len_grid_le (boxBasis bl tr Ot Et)
  refine ⟨min 1 (1.4142 * boxL bl tr Ot Et / M), lt_min one_pos (by positivity), fun n g hn hg => ?_⟩
  have hn' : (0 : ℝ) < n := by exact_mod_cast hn
  rw [layer, List.mem_toFinset, List.mem_filter, not_and_or, mem_gridpoints] at hg
  rcases hg with hg | hg
  · push Not at hg
    obtain ⟨a, ha⟩ := hg
    have h1 : (n : ℤ) ≤ |g a| := by
      by_cases h2 : -(n : ℤ) ≤ g a
      · exact (ha h2).le.trans (le_abs_self _)
      · have := neg_le_abs (g a); omega
    have h2 : (n : ℝ) ≤ ‖g‖ := by
      refine le_trans ?_ (norm_le_pi_norm g a)
      rw [Int.norm_eq_abs]
      exact_mod_cast h1
    refine le_trans ?_ h2
    have := min_le_left 1 (1.4142 * boxL bl tr Ot Et / M)
    nlinarith
  · rw [decide_eq_true_iff, not_le, norm3_eq_len] at hg
    have h1 := hg.trans_le (hb g)
    have h2 := min_le_right 1 (1.4142 * boxL bl tr Ot Et / M)
    refine (mul_le_mul_of_nonneg_right h2 hn'.le).trans ?_
    rw [div_mul_eq_mul_div, div_le_iff₀ hM]
    linarith

/-! ## Rapid convergence of the sums -/

variable (h : ∀ i, bl i < tr i) (hV : vol (boxBasis bl tr Ot Et) = boxL bl tr Ot Et ^ 3)
include h

theorem lamb_pos : 0 < boxLamb bl tr Ot Et :=
  div_pos (Real.sqrt_pos.mpr Real.pi_pos) (boxLattice_L_nonneg 0 bl tr Ot Et h)

include hV

theorem box_spans : Spans (boxBasis bl tr Ot Et) := spans_of_vol hV (boxLattice_L_nonneg 0 bl tr Ot Et h).ne'

theorem images_rapid (a b : ℝ) (l1 l2 : Load) (r : Vec3) :
    RapidTo (fun n => ((boxLattice n bl tr Ot Et).X.map fun x => nearResp (boxLamb bl tr Ot Et) a b l1 l2
      fun m => r m + x m).sum) (∑' g, nearResp (boxLamb bl tr Ot Et) a b l1 l2
        fun m => r m + gridVec (boxBasis bl tr Ot Et) g m) := by
  obtain ⟨κ, hκ, hl⟩ := layer_far (Ot := Ot) (Et := Et) h
  have hf := (nearResp_quick (β := Unit) (lamb_pos (Ot := Ot) (Et := Et) h) a b l1 l2).fast (box_spans h hV) () r
  refine (hf.layers hκ hl).congr fun n _ => ?_
  rw [images_sum]

theorem dash_rapid (a b : ℝ) (l1 l2 : Load) :
    RapidTo (fun n => ((boxLattice n bl tr Ot Et).Xdash.map fun x => nearResp (boxLamb bl tr Ot Et) a b l1 l2 x).sum)
      (∑' g, if g = 0 then 0 else nearResp (boxLamb bl tr Ot Et) a b l1 l2 (gridVec (boxBasis bl tr Ot Et) g)) := by
  obtain ⟨κ, hκ, hl⟩ := layer_far (Ot := Ot) (Et := Et) h
  have hf := ((nearResp_quick (β := Unit) (lamb_pos (Ot := Ot) (Et := Et) h) a b l1 l2).fast (box_spans h hV) () 0).ite
  simp only [Pi.zero_apply, zero_add] at hf
  refine (hf.layers hκ hl).congr fun n _ => ?_
  rw [dash_sum (box_spans h hV)]

theorem waves_rapid (a b : ℝ) (l1 l2 : Load) (r : Vec3) :
    RapidTo (fun n => ((boxLattice n bl tr Ot Et).K.map fun k => waveResp (boxLamb bl tr Ot Et) a b l1 l2 r k).sum)
      (∑' g, if g = 0 then 0 else waveResp (boxLamb bl tr Ot Et) a b l1 l2 r
        (gridVec (k_basis_vectors (boxL bl tr Ot Et) (boxBasis bl tr Ot Et)) g)) := by
  obtain ⟨κ, hκ, hl⟩ := layer_far (Ot := Ot) (Et := Et) h
  have hf := ((waveResp_quick (lamb_pos (Ot := Ot) (Et := Et) h) a b l1 l2).fast
    (spans_dual hV (boxLattice_L_nonneg 0 bl tr Ot Et h).ne') r 0).ite
  simp only [Pi.zero_apply, zero_add] at hf
  refine (hf.layers hκ hl).congr fun n _ => ?_
  rw [waves_sum (box_spans h hV)]

theorem imagesResp_eq (a b : ℝ) (l1 l2 : Load) {r : Vec3} (hr : ∀ v, InLattice (boxBasis bl tr Ot Et) v →
      (fun m => r m + v m) ≠ 0) : imagesResp (boxLamb bl tr Ot Et) (boxBasis bl tr Ot Et) a b l1 l2 r
      = ∑' g, nearResp (boxLamb bl tr Ot Et) a b l1 l2 fun m => r m + gridVec (boxBasis bl tr Ot Et) g m := by
  unfold imagesResp
  rw [tsum_images (box_spans h hV) fun v => greenResponse (nearJ (boxLamb bl tr Ot Et)) a b l1 l2 fun m => r m + v m]
  exact tsum_congr fun g => nearJ_response _ _ _ _ _ (hr _ ((inLattice_grid _).mpr ⟨g, rfl⟩))

theorem wavesResp_eq (V a b : ℝ) (l1 l2 : Load) (r : Vec3) :
    wavesResp (boxLamb bl tr Ot Et) V (boxBasis bl tr Ot Et) a b l1 l2 r
      = 1 / V * ∑' g, if g = 0 then 0 else waveResp (boxLamb bl tr Ot Et) a b l1 l2 r
        (gridVec (k_basis_vectors (boxL bl tr Ot Et) (boxBasis bl tr Ot Et)) g) := by
  unfold wavesResp
  simp only [oneWave_response]
  rw [tsum_waves hV (boxLattice_L_nonneg 0 bl tr Ot Et h).ne'
    fun k => waveResp (boxLamb bl tr Ot Et) a b l1 l2 r k]

theorem clear_of_lattice {r : Vec3} (hr : ∀ v, InLattice (boxBasis bl tr Ot Et) v → (fun m => r m + v m) ≠ 0) (n : ℕ) :
    r ∈ Clear (boxLattice n bl tr Ot Et).X := by
  intro x hx
  rw [boxLattice_X] at hx
  obtain ⟨g, -, rfl⟩ := List.mem_map.mp hx
  exact hr _ ((inLattice_grid _).mpr ⟨g, rfl⟩)

section
variable {r : Vec3} (hr : ∀ v, InLattice (boxBasis bl tr Ot Et) v → (fun m => r m + v m) ≠ 0)
include hr

theorem image_response_rapid (a b : ℝ) (l1 l2 : Load) :
    RapidTo (fun n => greenResponse (imageSum (boxLattice n bl tr Ot Et).lamb (boxLattice n bl tr Ot Et).X) a b l1 l2 r)
      (imagesResp (boxLamb bl tr Ot Et) (boxBasis bl tr Ot Et) a b l1 l2 r) := by
  rw [imagesResp_eq h hV a b l1 l2 hr]
  refine (images_rapid h hV a b l1 l2 r).congr fun n _ => ?_
  exact imageSum_response _ _ _ _ _ _ (clear_of_lattice h hV hr n)

theorem box_response_rapid (a b : ℝ) (l1 l2 : Load) :
    RapidTo (fun n => greenResponse (boxJ (boxLattice n bl tr Ot Et).lamb ((boxLattice n bl tr Ot Et).L ^ 3)
        (boxLattice n bl tr Ot Et).X (boxLattice n bl tr Ot Et).K) a b l1 l2 r)
      (arrayResp (boxLamb bl tr Ot Et) (boxL bl tr Ot Et ^ 3) (boxBasis bl tr Ot Et) a b l1 l2 r) := by
  unfold arrayResp
  rw [imagesResp_eq h hV a b l1 l2 hr, wavesResp_eq h hV]
  refine ((images_rapid h hV a b l1 l2 r).add ((waves_rapid h hV a b l1 l2 r).const_mul _)).congr fun n _ => ?_
  exact boxJ_response _ _ _ _ _ _ _ _ (clear_of_lattice h hV hr n)

end

/-! ## Components -/

omit h hV in
theorem five_rapid {S : ℕ → Fin 3 → Fin 3 → ℝ} {T : Fin 3 → Fin 3 → ℝ} (h : ∀ i j, RapidTo (fun n => S n i j) (T i j))
    (p : Fin 5) : RapidTo (fun n => five (S n) p) (five T p) := by
  fin_cases p <;> simp only [five] <;>
    first
      | exact ((h _ _).const_mul _).add ((h _ _).const_mul _)
      | exact (h _ _).const_mul _

omit h hV in
theorem mobOf_rapid {R : ℕ → Load → Load → ℝ} {R' : Load → Load → ℝ} (h : ∀ l1 l2, RapidTo (fun n => R n l1 l2) (R' l1 l2))
    (c1 c2 : Comp) : RapidTo (fun n => mobOf (R n) c1 c2) (mobOf R' c1 c2) := by
  cases c1 <;> cases c2 <;> simp only [mobOf]
  · exact h _ _
  · exact h _ _
  · exact RapidTo.sum _ fun j _ => RapidTo.sum _ fun k _ => (h _ _).const_mul _
  · exact h _ _
  · exact h _ _
  · exact RapidTo.sum _ fun j _ => RapidTo.sum _ fun k _ => (h _ _).const_mul _
  · exact five_rapid (fun i j => h _ _) _
  · exact five_rapid (fun i j => h _ _) _
  · exact five_rapid (fun i j => RapidTo.sum _ fun j _ => RapidTo.sum _ fun k _ => (h _ _).const_mul _) _

omit h hV in
theorem mobOf_tendsto {α : Type} {F : Filter α} {R : α → Load → Load → ℝ} {R' : Load → Load → ℝ}
    (h : ∀ l1 l2, Tendsto (fun n => R n l1 l2) F (𝓝 (R' l1 l2))) (c1 c2 : Comp) :
    Tendsto (fun n => mobOf (R n) c1 c2) F (𝓝 (mobOf R' c1 c2)) := by
  cases c1 <;> cases c2 <;> simp only [mobOf]
  · exact h _ _
  · exact h _ _
  · exact tendsto_finsetSum _ fun j _ => tendsto_finsetSum _ fun k _ => (h _ _).const_mul _
  · exact h _ _
  · exact h _ _
  · exact tendsto_finsetSum _ fun j _ => tendsto_finsetSum _ fun k _ => (h _ _).const_mul _
  · exact five_tendsto (fun i j => h _ _) _
  · exact five_tendsto (fun i j => h _ _) _
  · exact five_tendsto (fun i j => tendsto_finsetSum _ fun j _ => tendsto_finsetSum _ fun k _ => (h _ _).const_mul _) _

omit h hV in
theorem greenMob_mobOf (G : Green) (a b : ℝ) (c1 c2 : Comp) (r : Vec3) :
    greenMob G a b c1 c2 r = mobOf (fun l1 l2 => greenResponse G a b l1 l2 r) c1 c2 := by
  cases c1 <;> cases c2 <;> rfl

omit h hV in
theorem pairMob_mobOf (a b : ℝ) (c1 c2 : Comp) (r : Vec3) :
    pairMob a b c1 c2 r = mobOf (fun l1 l2 => response a b l1 l2 r) c1 c2 := by
  cases c1 <;> cases c2 <;> rfl

omit h hV in
theorem mobOf_sub (R R' : Load → Load → ℝ) (c1 c2 : Comp) :
    mobOf R c1 c2 - mobOf R' c1 c2 = mobOf (fun l1 l2 => R l1 l2 - R' l1 l2) c1 c2 := by
  have hf : ∀ (S T : Fin 3 → Fin 3 → ℝ) p, five S p - five T p = five (fun i j => S i j - T i j) p := fun S T p => by
    fin_cases p <;> simp [five] <;> ring
  cases c1 <;> cases c2 <;> simp only [mobOf, hf, ← Finset.sum_sub_distrib, mul_sub]

/-- The limit of what the code writes for two distinct beads. -/
noncomputable def arrayCode (lam V : ℝ) (B : Mat3) (ss : Bool) (a b : ℝ) (c1 c2 : Comp) (r : Vec3) : ℝ :=
  match c1, c2 with
  | .f _, .f _ => arrayMob lam V B a b c1 c2 r
  | .t _, .t _ => arrayMob lam V B a b c1 c2 r
  | .s _, .s _ => arrayMob lam V B a b c1 c2 r
  | .t _, .s _ => arrayMob lam V B a (Real.sqrt (5 / 3) * b) c1 c2 r
  | .s _, .t _ => arrayMob lam V B (Real.sqrt (5 / 3) * a) b c1 c2 r
  | _, _ => if ss then imagesMob lam B a b c1 c2 r else imagesMob lam B b a c1 c2 r

theorem codeMob_rapid {r : Vec3} (hr : ∀ v, InLattice (boxBasis bl tr Ot Et) v → (fun m => r m + v m) ≠ 0) (ss : Bool)
    (a b : ℝ) (c1 c2 : Comp) : RapidTo (fun n => codeMob (boxLattice n bl tr Ot Et) ss a b c1 c2 r)
      (arrayCode (boxLamb bl tr Ot Et) (boxL bl tr Ot Et ^ 3) (boxBasis bl tr Ot Et) ss a b c1 c2 r) := by
  have hG := fun a b c1 c2 => mobOf_rapid (fun l1 l2 => box_response_rapid h hV hr a b l1 l2) c1 c2
  have hI := fun a b c1 c2 => mobOf_rapid (fun l1 l2 => image_response_rapid h hV hr a b l1 l2) c1 c2
  have hS : ∀ c1 c2, RapidTo (fun n => if ss = true then
      greenMob (imageSum (boxLattice n bl tr Ot Et).lamb (boxLattice n bl tr Ot Et).X) a b c1 c2 r
      else greenMob (imageSum (boxLattice n bl tr Ot Et).lamb (boxLattice n bl tr Ot Et).X) b a c1 c2 r)
      (if ss = true then imagesMob (boxLamb bl tr Ot Et) (boxBasis bl tr Ot Et) a b c1 c2 r
        else imagesMob (boxLamb bl tr Ot Et) (boxBasis bl tr Ot Et) b a c1 c2 r) := by
    intro c1 c2
    simp only [greenMob_mobOf]
    cases ss
    · exact hI b a c1 c2
    · exact hI a b c1 c2
  cases c1 <;> cases c2 <;> simp only [codeMob, arrayCode]
  all_goals first
    | exact hS _ _
    | (simp only [greenMob_mobOf]; exact hG _ _ _ _)

/-! ## A particle and its own images -/

/-- What the infinitely many images add. -/
noncomputable def arrayRest (bl tr Ot : Vec3) (Et : Mat3) (a b : ℝ) (l1 l2 : Load) : ℝ :=
  (∑' g, if g = 0 then 0 else nearResp (boxLamb bl tr Ot Et) a b l1 l2 (gridVec (boxBasis bl tr Ot Et) g))
    + 1 / (boxL bl tr Ot Et ^ 3) * (∑' g, if g = 0 then 0 else waveResp (boxLamb bl tr Ot Et) a b l1 l2 0
        (gridVec (k_basis_vectors (boxL bl tr Ot Et) (boxBasis bl tr Ot Et)) g))
    - chainResp (smoothChain (boxLamb bl tr Ot Et)) a b l1 l2 0

theorem rest_rapid (a b : ℝ) (l1 l2 : Load) :
    RapidTo (fun n => rest (boxLattice n bl tr Ot Et).lamb ((boxLattice n bl tr Ot Et).L ^ 3)
      (boxLattice n bl tr Ot Et).Xdash (boxLattice n bl tr Ot Et).K a b l1 l2) (arrayRest bl tr Ot Et a b l1 l2) := by
  have := ((dash_rapid h hV a b l1 l2).add ((waves_rapid h hV a b l1 l2 0).const_mul (1 / (boxL bl tr Ot Et ^ 3)))).add
    (rapid_const (-chainResp (smoothChain (boxLamb bl tr Ot Et)) a b l1 l2 0))
  exact this

omit h hV in
theorem restMob_mobOf {W : Lattice} (hW : Proper W) (hn : (W.X.map fun x => -x).Perm W.X) (a b : ℝ) (c1 c2 : Comp) :
    restMob W a b c1 c2 = mobOf (fun l1 l2 => rest W.lamb (W.L ^ 3) W.Xdash W.K a b l1 l2) c1 c2 := by
  have h1 := imagesAddComp_rest hW hn a b c1 c2
  have h2 := mobOf_tendsto (fun l1 l2 => imagesAdd_rest hW (W.L ^ 3) a b l1 l2) c1 c2
  refine tendsto_nhds_unique h1 (h2.congr fun r => ?_)
  rw [← mobOf_sub, greenMob_mobOf, pairMob_mobOf]

/-- The limit of what the code writes for a bead and itself. -/
noncomputable def arraySelf (bl tr Ot : Vec3) (Et : Mat3) (c mu a : ℝ) (c1 c2 : Comp) : ℝ :=
  let A := fun a b c1 c2 => mobOf (arrayRest bl tr Ot Et a b) c1 c2
  match c1, c2 with
  | .f _, .f _ => selfMob mu a c1 c2 + c * A a a c1 c2
  | .t i, .t j => selfMob mu a c1 c2 + c * A a a c1 c2
      + c * (if i = j then 40 * boxLamb bl tr Ot Et ^ 3 / (3 * Real.sqrt Real.pi) else 0)
  | .s _, .s _ => selfMob mu a c1 c2 + c * A a a c1 c2
  | .t _, .s _ => c * A a (Real.sqrt (5 / 3) * a) c1 c2
  | .s _, .t _ => c * A a (Real.sqrt (5 / 3) * a) c2 c1
  | _, _ => 0

theorem codeSelf_rapid (hW : ∀ n, Proper (boxLattice n bl tr Ot Et)) (c mu a : ℝ) (c1 c2 : Comp) :
    RapidTo (fun n => codeSelf (boxLattice n bl tr Ot Et) c mu a c1 c2) (arraySelf bl tr Ot Et c mu a c1 c2) := by
  have hR : ∀ a b c1 c2, RapidTo (fun n => c * restMob (boxLattice n bl tr Ot Et) a b c1 c2)
      (c * mobOf (arrayRest bl tr Ot Et a b) c1 c2) := by
    intro a b c1 c2
    refine ((mobOf_rapid (fun l1 l2 => rest_rapid h hV a b l1 l2) c1 c2).const_mul c).congr fun n _ => ?_
    rw [restMob_mobOf (hW n) (boxLattice_X_symm n bl tr Ot Et)]
  have hs := fun c1 c2 => (rapid_const (selfMob mu a c1 c2)).add (hR a a c1 c2)
  cases c1 <;> cases c2 <;> simp only [codeSelf, arraySelf]
  · exact hs _ _
  · exact rapid_const 0
  · exact rapid_const 0
  · exact rapid_const 0
  · rename_i i j
    exact (hs _ _).add (rapid_const (c * (if i = j then 40 * boxLamb bl tr Ot Et ^ 3 / (3 * Real.sqrt Real.pi) else 0)))
  · exact hR _ _ _ _
  · exact rapid_const 0
  · exact hR _ _ _ _
  · exact hs _ _


/-! ## Small displacements -/

omit h hV in
theorem tsum_tendsto {F : Vec3 → (Fin 3 → ℤ) → ℝ}
    (hc : ∀ g ≠ 0, Tendsto (fun r => F r g) (𝓝 0) (𝓝 (F 0 g)))
    (hb : ∃ N, ∀ p : ℕ, ∃ C, ∀ r g, len r ≤ 1 → N ≤ ‖g‖ → |F r g| ≤ C / ‖g‖ ^ p) :
    Tendsto (fun r => ∑' g, if g = 0 then 0 else F r g) (𝓝 0) (𝓝 (∑' g, if g = 0 then 0 else F 0 g)) := by
  obtain ⟨N, hN⟩ := hb
  obtain ⟨C, hC⟩ := hN 6
  have hlen : ∀ᶠ r : Vec3 in 𝓝 0, len r ≤ 1 := by
    have hcont : Continuous len := by unfold len; fun_prop
    have h0 : len (0 : Vec3) < 1 := by simp [len]
    exact (hcont.tendsto 0).eventually_le_const h0
  let bound : (Fin 3 → ℤ) → ℝ := fun g => if ‖g‖ < N then |F 0 g| + 1 else |C| * (1 / ‖g‖ ^ 6)
  have hbs : Summable bound := by
    have e : (fun g : Fin 3 → ℤ => |C| * (1 / ‖g‖ ^ 6)) =ᶠ[cofinite] bound := by
      have hf := finite_small N
      refine (hf.subset ?_)
      intro g hg
      by_contra hn
      refine hg ?_
      change |C| * (1 / ‖g‖ ^ 6) = if ‖g‖ < N then |F 0 g| + 1 else |C| * (1 / ‖g‖ ^ 6)
      rw [if_neg (show ¬ ‖g‖ < N from hn)]
    exact ((summable_norm.mul_left |C|).congr_cofinite e)
  refine tendsto_tsum_of_dominated_convergence (bound := bound) hbs ?_ ?_
  · intro g
    by_cases hg : g = 0
    · simp [hg]
    · simpa [hg] using hc g hg
  · have hsmall : ∀ᶠ r : Vec3 in 𝓝 0, ∀ g ∈ {g : Fin 3 → ℤ | ‖g‖ < N}, g ≠ 0 → |F r g| ≤ |F 0 g| + 1 := by
      refine (eventually_all_finite (finite_small N)).mpr fun g _ => ?_
      refine eventually_imp_distrib_left.mpr fun hg => ?_
      exact (hc g hg).abs.eventually_le_const (by linarith)
    filter_upwards [hlen, hsmall] with r h1 h2 g
    simp only [bound]
    by_cases hg : g = 0
    · rw [if_pos hg]
      split_ifs
      · simpa using by positivity
      · simpa using by positivity
    · rw [if_neg hg, Real.norm_eq_abs]
      split_ifs with hn
      · exact h2 g hn hg
      · refine (hC r g h1 (not_lt.mp hn)).trans ?_
        rw [div_eq_mul_one_div]
        exact mul_le_mul_of_nonneg_right (le_abs_self C) (by positivity)

theorem adds_tendsto (a b : ℝ) (l1 l2 : Load) :
    Tendsto (fun r => arrayResp (boxLamb bl tr Ot Et) (boxL bl tr Ot Et ^ 3) (boxBasis bl tr Ot Et) a b l1 l2 r
      - response a b l1 l2 r) (𝓝[≠] 0) (𝓝 (arrayRest bl tr Ot Et a b l1 l2)) := by
  have hlam := lamb_pos (Ot := Ot) (Et := Et) h
  have hB := box_spans h hV
  have hLn := (boxLattice_L_nonneg 0 bl tr Ot Et h).ne'
  have t1 := tsum_tendsto (F := fun r g => nearResp (boxLamb bl tr Ot Et) a b l1 l2
      fun m => r m + gridVec (boxBasis bl tr Ot Et) g m) (by
    intro g hg
    have hne : gridVec (boxBasis bl tr Ot Et) g ≠ 0 := fun e => hg (independent_of_spans hB _ e)
    have e0 : (fun m => (0 : Vec3) m + gridVec (boxBasis bl tr Ot Et) g m) = gridVec (boxBasis bl tr Ot Et) g := by
      funext m; simp
    have h1 := nearResp_tendsto (boxLamb bl tr Ot Et) a b l1 l2 hne
    have h2 : Tendsto (fun (r : Vec3) m => r m + gridVec (boxBasis bl tr Ot Et) g m) (𝓝 0)
        (𝓝 (gridVec (boxBasis bl tr Ot Et) g)) := by
      have : Continuous fun (r : Vec3) m => r m + gridVec (boxBasis bl tr Ot Et) g m := by fun_prop
      have h3 := this.tendsto 0
      rwa [e0] at h3
    have h4 := h1.comp h2
    simp only [e0]
    exact h4) (by
    obtain ⟨N, -, hN⟩ := (nearResp_quick (β := Unit) hlam a b l1 l2).lattice hB 1
    refine ⟨N, fun p => ?_⟩
    obtain ⟨C, hC⟩ := hN p
    exact ⟨C, fun r g => hC () r g⟩)
  have t2 := tsum_tendsto (F := fun r g => waveResp (boxLamb bl tr Ot Et) a b l1 l2 r
      (gridVec (k_basis_vectors (boxL bl tr Ot Et) (boxBasis bl tr Ot Et)) g))
    (fun g _ => waveResp_tendsto _ _ _ _ _ _ _) (by
    obtain ⟨N, -, hN⟩ := (waveResp_quick hlam a b l1 l2).lattice (spans_dual hV hLn) 0
    refine ⟨N, fun p => ?_⟩
    obtain ⟨C, hC⟩ := hN p
    refine ⟨C, fun r g _ hg => ?_⟩
    have := hC r 0 g (by simp [len]) hg
    simpa using this)
  have t3 := smooth_tendsto (boxLamb bl tr Ot Et) a b l1 l2 0
  have key := ((t1.add (t2.const_mul (1 / (boxL bl tr Ot Et ^ 3)))).sub t3).mono_left (nhdsWithin_le_nhds (s := {0}ᶜ))
  simp only [Pi.zero_apply, zero_add] at key
  refine key.congr' ?_
  obtain ⟨c, hc, hg⟩ := le_len_grid hB
  have hsm : ∀ᶠ r : Vec3 in 𝓝[≠] 0, len r < c := by
    have hcont : Continuous len := by unfold len; fun_prop
    have h0 : len (0 : Vec3) < c := by simpa [len] using hc
    exact ((hcont.tendsto 0).eventually_lt_const h0).filter_mono nhdsWithin_le_nhds
  filter_upwards [hsm, self_mem_nhdsWithin] with r h1 h0
  have hr : ∀ v, InLattice (boxBasis bl tr Ot Et) v → (fun m => r m + v m) ≠ 0 := by
    intro v hv e
    obtain ⟨g, rfl⟩ := (inLattice_grid _).mp hv
    by_cases hg0 : g = 0
    · subst hg0
      rw [gridVec_zero] at e
      exact h0 (by simpa using e)
    · have h2 : len (gridVec (boxBasis bl tr Ot Et) g) = len r := by
        unfold len
        congr 1
        refine Finset.sum_congr rfl fun m _ => ?_
        have := congrFun e m
        simp only [Pi.zero_apply] at this
        rw [show gridVec (boxBasis bl tr Ot Et) g m = - r m by linarith, neg_sq]
      have h3 := hg g
      have h4 := one_le_norm hg0
      nlinarith
  have hsum := ((nearResp_quick (β := Unit) hlam a b l1 l2).fast hB () r).summable
  unfold arrayResp
  rw [imagesResp_eq h hV a b l1 l2 hr, wavesResp_eq h hV, hsum.tsum_eq_add_tsum_ite 0]
  have e1 : (fun m => r m + gridVec (boxBasis bl tr Ot Et) 0 m) = r := by rw [gridVec_zero]; funext m; simp
  have e2 : response a b l1 l2 r = chainResp freeChain a b l1 l2 r := by
    rw [← greenResponse_oseen a b l1 l2 h0, oseen_response a b l1 l2 h0]
  rw [e1, nearResp_chain, scr_response, e2]
  ring

theorem arrayAdds (a b : ℝ) (c1 c2 : Comp) :
    ArrayAdds (boxLamb bl tr Ot Et) (boxL bl tr Ot Et ^ 3) (boxBasis bl tr Ot Et) a b c1 c2
      (mobOf (arrayRest bl tr Ot Et a b) c1 c2) := by
  refine (mobOf_tendsto (fun l1 l2 => adds_tendsto h hV a b l1 l2) c1 c2).congr fun r => ?_
  rw [← mobOf_sub, pairMob_mobOf]
  rfl


end

/-! ## The sums depend only on the lattice -/

theorem isWave_congr {B B' : Mat3} (e : InLattice B = InLattice B') : IsWave B = IsWave B' := by
  funext k
  unfold IsWave
  rw [e]

theorem imagesMob_congr {B B' : Mat3} (e : InLattice B = InLattice B') (lam a b : ℝ) (c1 c2 : Comp) (r : Vec3) :
    imagesMob lam B a b c1 c2 r = imagesMob lam B' a b c1 c2 r := by
  unfold imagesMob imagesResp
  rw [e]

theorem arrayMob_congr {B B' : Mat3} (e : InLattice B = InLattice B') (lam V a b : ℝ) (c1 c2 : Comp) (r : Vec3) :
    arrayMob lam V B a b c1 c2 r = arrayMob lam V B' a b c1 c2 r := by
  unfold arrayMob arrayResp imagesResp wavesResp
  rw [isWave_congr e, e]

theorem arrayAdds_congr {B B' : Mat3} (e : InLattice B = InLattice B') {lam V a b : ℝ} {c1 c2 : Comp} {v : ℝ}
    (h : ArrayAdds lam V B a b c1 c2 v) : ArrayAdds lam V B' a b c1 c2 v := by
  unfold ArrayAdds at h ⊢
  simpa only [arrayMob_congr e] using h

theorem combine_add (B : Mat3) (c c' : Vec3) : (fun m => combine B c m + combine B c' m) = combine B fun i => c i + c' i := by
  funext m; simp only [combine]; ring

theorem combine_neg (B : Mat3) (c : Vec3) : (fun m => -combine B c m) = combine B fun i => -c i := by
  funext m; simp only [combine]; ring

theorem inLattice_add {B : Mat3} {v w : Vec3} (hv : InLattice B v) (hw : InLattice B w) : InLattice B fun m => v m + w m := by
  obtain ⟨n, rfl⟩ := hv
  obtain ⟨n', rfl⟩ := hw
  exact ⟨fun i => n i + n' i, by rw [combine_add]; push_cast; rfl⟩

theorem inLattice_neg {B : Mat3} {v : Vec3} (hv : InLattice B v) : InLattice B fun m => -v m := by
  obtain ⟨n, rfl⟩ := hv
  exact ⟨fun i => -n i, by rw [combine_neg]; push_cast; rfl⟩

theorem imagesResp_translate {B : Mat3} {v : Vec3} (hv : InLattice B v) (lam a b : ℝ) (l1 l2 : Load) (r : Vec3) :
    imagesResp lam B a b l1 l2 (fun m => r m + v m) = imagesResp lam B a b l1 l2 r := by
  let e : {w // InLattice B w} ≃ {w // InLattice B w} :=
    { toFun := fun w => ⟨fun m => v m + w.1 m, inLattice_add hv w.2⟩
      invFun := fun w => ⟨fun m => -v m + w.1 m, inLattice_add (inLattice_neg hv) w.2⟩
      left_inv := fun w => Subtype.ext (by funext m; simp)
      right_inv := fun w => Subtype.ext (by funext m; simp) }
  unfold imagesResp
  refine Eq.trans (tsum_congr fun w => ?_)
    (e.tsum_eq fun w => greenResponse (nearJ lam) a b l1 l2 fun m => r m + w.1 m)
  congr 1
  funext m
  simp only [e, Equiv.coe_fn_mk]
  ring

theorem wavesResp_translate {B : Mat3} {v : Vec3} (hv : InLattice B v) (lam V a b : ℝ) (l1 l2 : Load) (r : Vec3) :
    wavesResp lam V B a b l1 l2 (fun m => r m + v m) = wavesResp lam V B a b l1 l2 r := by
  unfold wavesResp
  congr 1
  refine tsum_congr fun k => ?_
  obtain ⟨z, hz⟩ := k.2.2 v hv
  have hin : inner3 k.1 (fun m => r m + v m) = inner3 k.1 r + z * (2 * Real.pi) := by
    rw [mul_comm (z : ℝ), ← hz]
    simp only [inner3, mul_add, Finset.sum_add_distrib]
  rw [oneWave_response, oneWave_response]
  unfold waveResp
  rw [hin, Real.cos_add_int_mul_two_pi, Real.sin_add_int_mul_two_pi]

theorem arrayMob_translate {B : Mat3} {v : Vec3} (hv : InLattice B v) (lam V a b : ℝ) (c1 c2 : Comp) (r : Vec3) :
    arrayMob lam V B a b c1 c2 (fun m => r m + v m) = arrayMob lam V B a b c1 c2 r := by
  unfold arrayMob arrayResp
  simp only [imagesResp_translate hv, wavesResp_translate hv]

theorem imagesMob_translate {B : Mat3} {v : Vec3} (hv : InLattice B v) (lam a b : ℝ) (c1 c2 : Comp) (r : Vec3) :
    imagesMob lam B a b c1 c2 (fun m => r m + v m) = imagesMob lam B a b c1 c2 r := by
  unfold imagesMob
  simp only [imagesResp_translate hv]

theorem arrayCode_translate {B : Mat3} {v : Vec3} (hv : InLattice B v) (lam V : ℝ) (ss : Bool) (a b : ℝ) (c1 c2 : Comp)
    (r : Vec3) : arrayCode lam V B ss a b c1 c2 (fun m => r m + v m) = arrayCode lam V B ss a b c1 c2 r := by
  cases c1 <;> cases c2 <;> simp only [arrayCode, arrayMob_translate hv, imagesMob_translate hv]

end SD.Ewald
