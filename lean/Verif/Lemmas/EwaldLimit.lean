import Verif.Lemmas.EwaldLarge
import Verif.Props.Motion

/-!
# Entries of the periodic far-field matrix in a large box
-/

set_option autoImplicit false

namespace SD.Ewald

open Spec Filter Topology

/-- The lattice in a unit of length `L` times smaller. -/
noncomputable def enlarged (L : ℝ) (U : Lattice) : Lattice where
  L := L * U.L
  lamb := U.lamb / L
  X := U.X.map fun x m => L * x m
  K := U.K.map fun k m => k m / L

theorem norm3_mul {L : ℝ} (hL : 0 < L) (x : Vec3) : norm3 (fun m => L * x m) = L * norm3 x := by
  rw [norm3_eq_len, norm3_eq_len, len_smul hL.le]

theorem enlarged_Xdash {L : ℝ} (hL : 0 < L) (U : Lattice) :
    (enlarged L U).Xdash = U.Xdash.map fun x m => L * x m := by
  unfold Lattice.Xdash enlarged
  dsimp only
  rw [List.filter_map]
  congr 1
  refine List.filter_congr fun x _ => ?_
  simp only [Function.comp, norm3_mul hL]
  rw [decide_eq_decide]
  exact ⟨fun h => by nlinarith [norm3_nonneg x], fun h => mul_pos hL h⟩

theorem edge_scale (L : ℝ) (d : Vec3) (k i : Fin 3) : edge (fun i => L * d i) k i = L * edge d k i := by
  unfold edge
  split_ifs <;> simp

theorem basis_scale {L : ℝ} (hL : 0 < L) (o : Vec3) {d : Vec3} (hd : ∀ i, 0 < d i) (Ot : Vec3) (Et : Mat3) :
    boxBasis o (fun i => o i + L * d i) Ot Et = fun k i => L * boxBasis 0 d Ot Et k i := by
  have e1 : (fun i => (o i + L * d i) - o i) = fun i => L * d i := by funext i; ring
  have e2 : (fun i => d i - (0 : Vec3) i) = d := by funext i; simp
  unfold boxBasis
  rw [e1, e2]
  have h1 := shear_basis_folded (Ot := Ot) (Et := Et) (L := fun i => L * d i) fun i => mul_pos hL (hd i)
  refine folded_unique h1 ?_
  have h2 := shear_basis_folded (Ot := Ot) (Et := Et) hd
  intro k i
  obtain ⟨⟨a, b⟩, z, hz⟩ := h2 k i
  have e3 : edge (fun i => L * d i) k = fun i => L * edge d k i := funext fun i => edge_scale L d k i
  rw [e3]
  refine ⟨⟨by nlinarith, by nlinarith⟩, z, ?_⟩
  have c1 : cross Ot (fun i => L * edge d k i) i = L * cross Ot (edge d k) i := by
    fin_cases i <;> simp [cross] <;> ring
  have c2 : app Et (fun i => L * edge d k i) i = L * app Et (edge d k) i := by
    simp only [app, dotp, Fin.sum_univ_three]; ring
  rw [c1, c2]
  linear_combination L * hz

theorem gridVec_scale (L : ℝ) (B : Mat3) (g : Fin 3 → ℤ) :
    gridVec (fun k i => L * B k i) g = fun m => L * gridVec B g m := by
  funext m; simp only [gridVec, vecMat3, Fin.sum_univ_three]; ring

/-- A box `L` times as large has the lattice `L` times as large. -/
theorem box_enlarged (n : ℕ) {L : ℝ} (hL : 0 < L) (o : Vec3) {d : Vec3} (hd : ∀ i, 0 < d i) (Ot : Vec3) (Et : Mat3) :
    boxLattice n o (fun i => o i + L * d i) Ot Et = enlarged L (boxLattice n 0 d Ot Et) := by
  have hv : 0 < d 0 * d 1 * d 2 := mul_pos (mul_pos (hd 0) (hd 1)) (hd 2)
  have hl : (boxLattice n o (fun i => o i + L * d i) Ot Et).L = L * (boxLattice n 0 d Ot Et).L := by
    simp only [boxLattice, Pi.zero_apply, sub_zero]
    rw [show (o 0 + L * d 0 - o 0) * (o 1 + L * d 1 - o 1) * (o 2 + L * d 2 - o 2) = L ^ 3 * (d 0 * d 1 * d 2) by ring,
      Real.mul_rpow (by positivity) hv.le]
    congr 1
    rw [← Real.rpow_natCast, ← Real.rpow_mul hL.le]
    norm_num
  have hlp : 0 < (boxLattice n 0 d Ot Et).L := boxLattice_L_nonneg n 0 d Ot Et hd
  have hB := basis_scale hL o hd Ot Et
  have hin : ∀ g, decide (norm3 (gridVec (boxBasis o (fun i => o i + L * d i) Ot Et) g)
      ≤ 1.4142 * n * (boxLattice n o (fun i => o i + L * d i) Ot Et).L)
      = decide (norm3 (gridVec (boxBasis 0 d Ot Et) g) ≤ 1.4142 * n * (boxLattice n 0 d Ot Et).L) := by
    intro g
    rw [hB, gridVec_scale, norm3_mul hL, hl, decide_eq_decide,
      show 1.4142 * (n : ℝ) * (L * (boxLattice n 0 d Ot Et).L) = L * (1.4142 * n * (boxLattice n 0 d Ot Et).L) by ring]
    exact ⟨fun h => le_of_mul_le_mul_left h hL, fun h => mul_le_mul_of_nonneg_left h hL.le⟩
  have hX : (boxLattice n o (fun i => o i + L * d i) Ot Et).X
      = (boxLattice n 0 d Ot Et).X.map fun x m => L * x m := by
    rw [boxLattice_X, boxLattice_X, List.map_map]
    simp only [hin]
    refine List.map_congr_left fun g _ => ?_
    rw [hB, gridVec_scale]
    rfl
  have hpos : ∀ g, decide (norm3 (gridVec (boxBasis o (fun i => o i + L * d i) Ot Et) g) > 0)
      = decide (norm3 (gridVec (boxBasis 0 d Ot Et) g) > 0) := by
    intro g
    rw [hB, gridVec_scale, norm3_mul hL, decide_eq_decide]
    exact ⟨fun h => by nlinarith [norm3_nonneg (gridVec (boxBasis 0 d Ot Et) g)], fun h => mul_pos hL h⟩
  have hK0 : ∀ bl tr : Vec3, (boxLattice n bl tr Ot Et).K = ((gridpoints n).filter fun g =>
      decide (norm3 (gridVec (boxBasis bl tr Ot Et) g) ≤ 1.4142 * n * (boxLattice n bl tr Ot Et).L)
        && decide (norm3 (gridVec (boxBasis bl tr Ot Et) g) > 0)).map
      (gridVec (k_basis_vectors (boxLattice n bl tr Ot Et).L (boxBasis bl tr Ot Et))) := fun _ _ => rfl
  have hkb : k_basis_vectors (boxLattice n o (fun i => o i + L * d i) Ot Et).L
      (boxBasis o (fun i => o i + L * d i) Ot Et)
      = fun k i => 1 / L * k_basis_vectors (boxLattice n 0 d Ot Et).L (boxBasis 0 d Ot Et) k i := by
    rw [hB, hl]
    generalize boxBasis 0 d Ot Et = B
    generalize (boxLattice n 0 d Ot Et).L = l
    funext k i
    unfold k_basis_vectors
    rw [mul_pow, mul_inv]
    fin_cases k <;> fin_cases i <;> simp [npCross] <;> field_simp
  have hK : (boxLattice n o (fun i => o i + L * d i) Ot Et).K
      = (boxLattice n 0 d Ot Et).K.map fun k m => k m / L := by
    rw [hK0, hK0, List.map_map]
    simp only [hin, hpos]
    refine List.map_congr_left fun g _ => ?_
    rw [hkb, gridVec_scale]
    funext m
    simp only [Function.comp]
    ring
  have hlam : (boxLattice n o (fun i => o i + L * d i) Ot Et).lamb = (boxLattice n 0 d Ot Et).lamb / L := by
    have e : ∀ bl tr : Vec3, (boxLattice n bl tr Ot Et).lamb = Real.sqrt Real.pi / (boxLattice n bl tr Ot Et).L :=
      fun _ _ => rfl
    rw [e, e, hl]
    field_simp
  have ext : ∀ W W' : Lattice, W.L = W'.L → W.lamb = W'.lamb → W.X = W'.X → W.K = W'.K → W = W' := by
    rintro ⟨⟩ ⟨⟩ h1 h2 h3 h4
    dsimp only at h1 h2 h3 h4
    subst h1 h2 h3 h4
    rfl
  exact ext _ _ hl hlam hX hK

section
variable {U : Lattice} (hU : U.X.Perm (0 :: U.Xdash))
include hU

theorem clear_eventually {r : Vec3} (hr : r ≠ 0) : ∀ᶠ L : ℝ in atTop, r ∈ Clear (enlarged L U).X := by
  have h1 := (vec_div_tendsto_zero r).eventually ((isOpen_clear U.Xdash).mem_nhds (show (0 : Vec3) ∈ _ from
    fun x hx => by simpa using Xdash_ne_zero U x hx))
  filter_upwards [h1, eventually_gt_atTop 0] with L h hL
  intro v hv
  obtain ⟨x, hx, rfl⟩ := List.mem_map.mp hv
  rcases List.mem_cons.mp (hU.mem_iff.mp hx) with rfl | hx
  · simpa using hr
  · intro e
    refine h x hx ?_
    funext m
    have := congrFun e m
    simp only [Pi.zero_apply] at this ⊢
    field_simp
    linarith

/-- The response through the box tends to that in open space. -/
theorem box_response_tendsto (a b : ℝ) (l1 l2 : Load) {r : Vec3} (hr : r ≠ 0) :
    Tendsto (fun L => greenResponse (boxJ (enlarged L U).lamb ((enlarged L U).L ^ 3) (enlarged L U).X (enlarged L U).K)
      a b l1 l2 r) atTop (𝓝 (response a b l1 l2 r)) := by
  have h := (added_tendsto U.lamb (U.L ^ 3) (Xdash_ne_zero U) U.K a b l1 l2 r).const_add (response a b l1 l2 r)
  rw [add_zero] at h
  refine h.congr' ?_
  filter_upwards [clear_eventually hU hr, eventually_gt_atTop 0] with L hc hL
  have := box_response_scaled hL U.lamb (U.L ^ 3) hU U.K a b l1 l2 hc
  rw [← mul_pow] at this
  exact this.symm

/-- So does the response through the images alone. -/
theorem image_response_tendsto (a b : ℝ) (l1 l2 : Load) {r : Vec3} (hr : r ≠ 0) :
    Tendsto (fun L => greenResponse (imageSum (enlarged L U).lamb (enlarged L U).X) a b l1 l2 r) atTop
      (𝓝 (response a b l1 l2 r)) := by
  have h := (added_tendsto U.lamb 1 (Xdash_ne_zero U) [] a b l1 l2 r).const_add (response a b l1 l2 r)
  rw [add_zero] at h
  refine h.congr' ?_
  filter_upwards [clear_eventually hU hr, eventually_gt_atTop 0] with L hc hL
  exact (image_response_scaled hL U.lamb hU a b l1 l2 hc).symm

omit hU in
theorem mob_tendsto {G : ℝ → Green} {a b : ℝ} {r : Vec3}
    (h : ∀ l1 l2, Tendsto (fun L => greenResponse (G L) a b l1 l2 r) atTop (𝓝 (response a b l1 l2 r)))
    (c1 c2 : Comp) : Tendsto (fun L => greenMob (G L) a b c1 c2 r) atTop (𝓝 (pairMob a b c1 c2 r)) := by
  have ht : ∀ l1, Tendsto (fun L => greenTo (G L) a b l1 c2 r) atTop (𝓝 (respTo a b l1 c2 r)) := by
    intro l1
    cases c2 with
    | f j => exact h l1 _
    | t j => exact h l1 _
    | s q => exact tendsto_finsetSum _ fun j _ => tendsto_finsetSum _ fun k _ => (h l1 _).const_mul _
  cases c1 with
  | f i => exact ht _
  | t i => exact ht _
  | s p => exact five_tendsto (fun i j => ht _) p

/-- The pair entries. For a sphere and a bead the radii are exchanged in the blocks that join a force with a torque or
stress. -/
noncomputable def limMob (ss : Bool) (a b : ℝ) (c1 c2 : Comp) (r : Vec3) : ℝ :=
  match c1, c2 with
  | .f _, .f _ => pairMob a b c1 c2 r
  | .t _, .t _ => pairMob a b c1 c2 r
  | .s _, .s _ => pairMob a b c1 c2 r
  | .t _, .s _ => pairMob a b c1 c2 r
  | .s _, .t _ => pairMob a b c1 c2 r
  | _, _ => if ss then pairMob a b c1 c2 r else pairMob b a c1 c2 r

omit hU in
theorem pair_ts (a b a' b' : ℝ) (i : Fin 3) (q : Fin 5) {r : Vec3} (hr : r ≠ 0) :
    pairMob a b (.t i) (.s q) r = pairMob a' b' (.t i) (.s q) r := by
  simp only [pairMob, respTo, resp_TS _ _ _ _ _ hr]

omit hU in
theorem pair_st (a b a' b' : ℝ) (i : Fin 3) (q : Fin 5) {r : Vec3} (hr : r ≠ 0) :
    pairMob a b (.s q) (.t i) r = pairMob a' b' (.s q) (.t i) r := by
  simp only [pairMob, respTo, resp_ST _ _ _ _ _ hr]

omit hU in
theorem pair_ft (a b a' b' : ℝ) (i j : Fin 3) {r : Vec3} (hr : r ≠ 0) :
    pairMob a b (.f i) (.t j) r = pairMob a' b' (.f i) (.t j) r ∧
    pairMob a b (.t i) (.f j) r = pairMob a' b' (.t i) (.f j) r := by
  simp only [pairMob, respTo, resp_FT _ _ _ _ hr, resp_TF _ _ _ _ hr, and_self]

theorem codeMob_tendsto (ss : Bool) (a b : ℝ) (c1 c2 : Comp) {r : Vec3} (hr : r ≠ 0) :
    Tendsto (fun L => codeMob (enlarged L U) ss a b c1 c2 r) atTop (𝓝 (limMob ss a b c1 c2 r)) := by
  have hG := fun a b c1 c2 => mob_tendsto (fun l1 l2 => box_response_tendsto hU a b l1 l2 hr) c1 c2
  have hI := fun a b c1 c2 => mob_tendsto (fun l1 l2 => image_response_tendsto hU a b l1 l2 hr) c1 c2
  have hS : ∀ c1 c2, Tendsto (fun L => if ss = true then
      greenMob (imageSum (enlarged L U).lamb (enlarged L U).X) a b c1 c2 r
      else greenMob (imageSum (enlarged L U).lamb (enlarged L U).X) b a c1 c2 r) atTop
      (𝓝 (if ss = true then pairMob a b c1 c2 r else pairMob b a c1 c2 r)) := by
    intro c1 c2
    cases ss
    · exact hI b a c1 c2
    · exact hI a b c1 c2
  cases c1 with
  | f i =>
    cases c2 with
    | f j => exact hG a b (.f i) (.f j)
    | t j => exact hS (.f i) (.t j)
    | s q => exact hS (.f i) (.s q)
  | t i =>
    cases c2 with
    | f j => exact hS (.t i) (.f j)
    | t j => exact hG a b (.t i) (.t j)
    | s q =>
      simp only [codeMob, limMob]
      rw [pair_ts a b a (Real.sqrt (5 / 3) * b) _ _ hr]
      exact hG a (Real.sqrt (5 / 3) * b) (.t i) (.s q)
  | s p =>
    cases c2 with
    | f j => exact hS (.s p) (.f j)
    | t j =>
      simp only [codeMob, limMob]
      rw [pair_st a b (Real.sqrt (5 / 3) * a) b _ _ hr]
      exact hG (Real.sqrt (5 / 3) * a) b (.s p) (.t j)
    | s q => exact hG a b (.s p) (.s q)

omit hU in
theorem limMob_eq (ss : Bool) (a b : ℝ) (c1 c2 : Comp) (r : Vec3) (h : ss = true ∨ a = b) :
    limMob ss a b c1 c2 r = pairMob a b c1 c2 r := by
  rcases h with rfl | rfl
  · cases c1 <;> cases c2 <;> rfl
  · cases c1 <;> cases c2 <;> cases ss <;> rfl

omit hU in
/-- What the images add to a particle's own motion, in the unit of length `L`. -/
theorem rest_scaled {L : ℝ} (hL : 0 < L) (lamb V : ℝ) (X K : List Vec3) (a b : ℝ) (l1 l2 : Load) :
    rest (lamb / L) (L ^ 3 * V) (X.map fun x m => L * x m) (K.map fun k m => k m / L) a b l1 l2
      = 1 / L ^ (1 + deg l1 + deg l2) * slack lamb V X K (a / L) (b / L) l1 l2 0 := by
  rw [slack_zero]
  unfold rest
  rw [List.map_map, List.map_map]
  simp only [Function.comp_def]
  have z : (fun m => L * (0 : Vec3) m) = 0 := by funext m; simp
  have n1 : ∀ x : Vec3, nearResp (lamb / L) a b l1 l2 (fun m => L * x m)
      = 1 / L ^ (1 + deg l1 + deg l2) * nearResp lamb (a / L) (b / L) l1 l2 x := by
    intro x
    rw [nearResp_chain, nearResp_chain]
    exact chain_scale hL (scr_scale hL lamb) a b l1 l2 x
  have n2 : ∀ k : Vec3, waveResp (lamb / L) a b l1 l2 0 (fun m => k m / L)
      = L ^ 2 / L ^ (deg l1 + deg l2) * waveResp lamb (a / L) (b / L) l1 l2 0 k := by
    intro k
    have := waveResp_scale hL lamb a b l1 l2 0 k
    rwa [z] at this
  have n3 : chainResp (smoothChain (lamb / L)) a b l1 l2 0
      = 1 / L ^ (1 + deg l1 + deg l2) * chainResp (smoothChain lamb) (a / L) (b / L) l1 l2 0 := by
    have := chain_scale hL (smoothChain_scale hL lamb) a b l1 l2 0
    rwa [z] at this
  simp only [n1, n2, n3, List.sum_map_mul_left]
  have e2 : 1 / (L ^ 3 * V) * (L ^ 2 / L ^ (deg l1 + deg l2)) = 1 / L ^ (1 + deg l1 + deg l2) * (1 / V) := by
    rw [show 1 + deg l1 + deg l2 = 1 + (deg l1 + deg l2) by ring]
    generalize deg l1 + deg l2 = n
    rw [pow_add, pow_one]
    field_simp
  rw [← mul_assoc, e2]
  ring

omit hU in
theorem rest_tendsto (U : Lattice) (a b : ℝ) (l1 l2 : Load) :
    Tendsto (fun L => rest (enlarged L U).lamb ((enlarged L U).L ^ 3) (enlarged L U).Xdash (enlarged L U).K a b l1 l2)
      atTop (𝓝 0) := by
  have h := added_tendsto U.lamb (U.L ^ 3) (Xdash_ne_zero U) U.K a b l1 l2 0
  refine h.congr' ?_
  filter_upwards [eventually_gt_atTop 0] with L hL
  rw [enlarged_Xdash hL]
  have e := rest_scaled hL U.lamb (U.L ^ 3) U.Xdash U.K a b l1 l2
  rw [← mul_pow] at e
  have z : (fun m => (0 : Vec3) m / L) = 0 := by funext m; simp
  rw [z]
  exact e.symm

omit hU in
theorem restMob_tendsto (U : Lattice) (a b : ℝ) (c1 c2 : Comp) :
    Tendsto (fun L => restMob (enlarged L U) a b c1 c2) atTop (𝓝 0) := by
  have f0 : ∀ p, five (fun _ _ => 0) p = 0 := fun p => by fin_cases p <;> simp [five]
  have h := rest_tendsto U a b
  cases c1 <;> cases c2 <;> simp only [restMob]
  · exact h _ _
  · exact h _ _
  · rw [← f0]; exact five_tendsto (fun i j => h _ _) _
  · exact h _ _
  · exact h _ _
  · rw [← f0]; exact five_tendsto (fun i j => h _ _) _
  · rw [← f0]; exact five_tendsto (fun i j => h _ _) _
  · rw [← f0]; exact five_tendsto (fun i j => h _ _) _
  · rename_i p q
    have := five_tendsto (F := atTop) (fun i j => five_tendsto (fun k l => h (.stress i j) (.stress k l)) q) p
    simpa only [f0] using this

omit hU in
theorem codeSelf_tendsto (U : Lattice) (c mu a : ℝ) (c1 c2 : Comp) :
    Tendsto (fun L => codeSelf (enlarged L U) c mu a c1 c2) atTop (𝓝 (selfMob mu a c1 c2)) := by
  have h := fun a b c1 c2 => (restMob_tendsto U a b c1 c2).const_mul c
  simp only [mul_zero] at h
  have hs := fun c1 c2 => (h a a c1 c2).const_add (selfMob mu a c1 c2)
  simp only [add_zero] at hs
  cases c1 <;> cases c2 <;> simp only [codeSelf]
  · exact hs _ _
  · exact tendsto_const_nhds
  · exact tendsto_const_nhds
  · exact tendsto_const_nhds
  · rename_i i j
    have h3 : Tendsto (fun L => c * (if i = j then 40 * (enlarged L U).lamb ^ 3 / (3 * Real.sqrt Real.pi) else 0)) atTop
        (𝓝 0) := by
      split_ifs
      · have := (((div_tendsto_zero U.lamb).pow 3).const_mul 40).div_const (3 * Real.sqrt Real.pi)
        have := this.const_mul c
        rw [zero_pow (by norm_num), mul_zero, zero_div, mul_zero] at this
        exact this
      · simp
    have := (hs (.t i) (.t j)).add h3
    rwa [add_zero] at this
  · exact h _ _ _ _
  · exact tendsto_const_nhds
  · exact h _ _ _ _
  · exact hs _ _

end

end SD.Ewald
