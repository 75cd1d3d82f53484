import Verif.Lemmas.EwaldLayers
import Verif.Lemmas.EwaldLimit

/-!
# The infinite array in a large box
-/

set_option autoImplicit false

namespace SD.Ewald

open Spec Filter Topology

/-! ## What all other images add, at any displacement -/

/-- Through the images. -/
noncomputable def slackI (bl tr Ot : Vec3) (Et : Mat3) (l1 l2 : Load) (a b : ℝ) (r : Vec3) : ℝ :=
  (∑' g, if g = 0 then 0 else nearResp (boxLamb bl tr Ot Et) a b l1 l2
      fun m => r m + gridVec (boxBasis bl tr Ot Et) g m)
    - chainResp (smoothChain (boxLamb bl tr Ot Et)) a b l1 l2 r

/-- Through the waves. -/
noncomputable def slackW (bl tr Ot : Vec3) (Et : Mat3) (l1 l2 : Load) (a b : ℝ) (r : Vec3) : ℝ :=
  1 / (boxL bl tr Ot Et ^ 3) * (∑' g, if g = 0 then 0 else waveResp (boxLamb bl tr Ot Et) a b l1 l2 r
        (gridVec (k_basis_vectors (boxL bl tr Ot Et) (boxBasis bl tr Ot Et)) g))

theorem arrayRest_slack (bl tr Ot : Vec3) (Et : Mat3) (a b : ℝ) (l1 l2 : Load) :
    arrayRest bl tr Ot Et a b l1 l2 = slackI bl tr Ot Et l1 l2 a b 0 + slackW bl tr Ot Et l1 l2 a b 0 := by
  unfold arrayRest slackI slackW
  simp only [Pi.zero_apply, zero_add]
  ring

section
variable {bl tr Ot : Vec3} {Et : Mat3} (h : ∀ i, bl i < tr i)
  (hV : vol (boxBasis bl tr Ot Et) = boxL bl tr Ot Et ^ 3)
include h hV

theorem imagesResp_slack (a b : ℝ) (l1 l2 : Load) {r : Vec3} (hr : ∀ v, InLattice (boxBasis bl tr Ot Et) v →
      (fun m => r m + v m) ≠ 0) : imagesResp (boxLamb bl tr Ot Et) (boxBasis bl tr Ot Et) a b l1 l2 r
      = response a b l1 l2 r + slackI bl tr Ot Et l1 l2 a b r := by
  have hlam := lamb_pos (Ot := Ot) (Et := Et) h
  have hB := box_spans h hV
  have e1 : (fun m => r m + gridVec (boxBasis bl tr Ot Et) 0 m) = r := by rw [gridVec_zero]; funext m; simp
  have h0 : r ≠ 0 := by
    have := hr (gridVec (boxBasis bl tr Ot Et) 0) ((inLattice_grid _).mpr ⟨0, rfl⟩)
    rwa [e1] at this
  have hsum := ((nearResp_quick (β := Unit) hlam a b l1 l2).fast hB () r).summable
  have e2 : response a b l1 l2 r = chainResp freeChain a b l1 l2 r := by
    rw [← greenResponse_oseen a b l1 l2 h0, oseen_response a b l1 l2 h0]
  rw [imagesResp_eq h hV a b l1 l2 hr, hsum.tsum_eq_add_tsum_ite 0, e1, nearResp_chain, scr_response, e2, slackI]
  ring

theorem arrayResp_slack (a b : ℝ) (l1 l2 : Load) {r : Vec3} (hr : ∀ v, InLattice (boxBasis bl tr Ot Et) v →
      (fun m => r m + v m) ≠ 0) :
    arrayResp (boxLamb bl tr Ot Et) (boxL bl tr Ot Et ^ 3) (boxBasis bl tr Ot Et) a b l1 l2 r
      = response a b l1 l2 r + (slackI bl tr Ot Et l1 l2 a b r + slackW bl tr Ot Et l1 l2 a b r) := by
  unfold arrayResp
  rw [imagesResp_slack h hV a b l1 l2 hr, wavesResp_eq h hV, add_assoc]
  rfl

/-! ### Dependence on the radii and on the displacement -/

theorem slackI_near_tendsto (a b : ℝ) (l1 l2 : Load) : Tendsto (slackI bl tr Ot Et l1 l2 a b) (𝓝 0)
    (𝓝 (slackI bl tr Ot Et l1 l2 a b 0)) := by
  have hlam := lamb_pos (Ot := Ot) (Et := Et) h
  have hB := box_spans h hV
  refine (tsum_tendsto (F := fun r g => nearResp (boxLamb bl tr Ot Et) a b l1 l2
      fun m => r m + gridVec (boxBasis bl tr Ot Et) g m) ?_ ?_).sub (smooth_tendsto (boxLamb bl tr Ot Et) a b l1 l2 0)
  · intro g hg
    have hne : gridVec (boxBasis bl tr Ot Et) g ≠ 0 := fun e => hg (independent_of_spans hB _ e)
    have e0 : (fun m => (0 : Vec3) m + gridVec (boxBasis bl tr Ot Et) g m) = gridVec (boxBasis bl tr Ot Et) g := by
      funext m; simp
    have h1 := nearResp_tendsto (boxLamb bl tr Ot Et) a b l1 l2 hne
    have h2 : Tendsto (fun (r : Vec3) m => r m + gridVec (boxBasis bl tr Ot Et) g m) (𝓝 0)
        (𝓝 (gridVec (boxBasis bl tr Ot Et) g)) := by
      have : Continuous fun (r : Vec3) m => r m + gridVec (boxBasis bl tr Ot Et) g m := by fun_prop
      have h3 := this.tendsto 0
      rwa [e0] at h3
    have h4 := h1.comp h2
    simp only [e0]
    exact h4
  · obtain ⟨N, -, hN⟩ := (nearResp_quick (β := Unit) hlam a b l1 l2).lattice hB 1
    refine ⟨N, fun p => ?_⟩
    obtain ⟨C, hC⟩ := hN p
    exact ⟨C, fun r g => hC () r g⟩

theorem slackW_near_tendsto (a b : ℝ) (l1 l2 : Load) : Tendsto (slackW bl tr Ot Et l1 l2 a b) (𝓝 0)
    (𝓝 (slackW bl tr Ot Et l1 l2 a b 0)) := by
  have hlam := lamb_pos (Ot := Ot) (Et := Et) h
  refine Tendsto.const_mul _ (tsum_tendsto (F := fun r g => waveResp (boxLamb bl tr Ot Et) a b l1 l2 r
      (gridVec (k_basis_vectors (boxL bl tr Ot Et) (boxBasis bl tr Ot Et)) g))
    (fun g _ => waveResp_tendsto _ _ _ _ _ _ _) ?_)
  obtain ⟨N, -, hN⟩ := (waveResp_quick hlam a b l1 l2).lattice
    (spans_dual hV (boxLattice_L_nonneg 0 bl tr Ot Et h).ne') 0
  refine ⟨N, fun p => ?_⟩
  obtain ⟨C, hC⟩ := hN p
  refine ⟨C, fun r g _ hg => ?_⟩
  have := hC r 0 g (by simp [len]) hg
  simpa using this

omit h hV in
theorem tsum_quad {f : ℝ → ℝ → (Fin 3 → ℤ) → ℝ} (hs : ∀ a b, Fast (f a b))
    (hq : ∀ a b g, f a b g = f 0 0 g + a ^ 2 * (f 1 0 g - f 0 0 g) + b ^ 2 * (f 0 1 g - f 0 0 g)) (a b : ℝ) :
    (∑' g, if g = 0 then 0 else f a b g) = (∑' g, if g = 0 then 0 else f 0 0 g)
      + a ^ 2 * ((∑' g, if g = 0 then 0 else f 1 0 g) - ∑' g, if g = 0 then 0 else f 0 0 g)
      + b ^ 2 * ((∑' g, if g = 0 then 0 else f 0 1 g) - ∑' g, if g = 0 then 0 else f 0 0 g) := by
  have s := fun a b => (hs a b).ite.summable
  rw [← (s 1 0).tsum_sub (s 0 0), ← (s 0 1).tsum_sub (s 0 0), ← tsum_mul_left, ← tsum_mul_left,
    ← (s 0 0).tsum_add (((s 1 0).sub (s 0 0)).mul_left _),
    ← ((s 0 0).add (((s 1 0).sub (s 0 0)).mul_left _)).tsum_add (((s 0 1).sub (s 0 0)).mul_left _)]
  refine tsum_congr fun g => ?_
  by_cases hg : g = 0
  · simp [hg]
  · simp only [if_neg hg]
    exact hq a b g

theorem slackI_quad (l1 l2 : Load) (a b : ℝ) (r : Vec3) : slackI bl tr Ot Et l1 l2 a b r = slackI bl tr Ot Et l1 l2 0 0 r
    + a ^ 2 * (slackI bl tr Ot Et l1 l2 1 0 r - slackI bl tr Ot Et l1 l2 0 0 r)
    + b ^ 2 * (slackI bl tr Ot Et l1 l2 0 1 r - slackI bl tr Ot Et l1 l2 0 0 r) := by
  unfold slackI
  rw [tsum_quad (f := fun a b g => nearResp (boxLamb bl tr Ot Et) a b l1 l2
      fun m => r m + gridVec (boxBasis bl tr Ot Et) g m)
    (fun a b => (nearResp_quick (β := Unit) (lamb_pos h) a b l1 l2).fast (box_spans h hV) () r)
    (fun a b g => chain_quad _ l1 l2 a b _) a b, chain_quad (smoothChain (boxLamb bl tr Ot Et)) l1 l2 a b r]
  ring

theorem slackW_quad (l1 l2 : Load) (a b : ℝ) (r : Vec3) : slackW bl tr Ot Et l1 l2 a b r = slackW bl tr Ot Et l1 l2 0 0 r
    + a ^ 2 * (slackW bl tr Ot Et l1 l2 1 0 r - slackW bl tr Ot Et l1 l2 0 0 r)
    + b ^ 2 * (slackW bl tr Ot Et l1 l2 0 1 r - slackW bl tr Ot Et l1 l2 0 0 r) := by
  unfold slackW
  rw [tsum_quad (f := fun a b g => waveResp (boxLamb bl tr Ot Et) a b l1 l2 r
        (gridVec (k_basis_vectors (boxL bl tr Ot Et) (boxBasis bl tr Ot Et)) g))
    (fun a b => by
      have := (waveResp_quick (lamb_pos (Ot := Ot) (Et := Et) h) a b l1 l2).fast
        (spans_dual hV (boxLattice_L_nonneg 0 bl tr Ot Et h).ne') r 0
      simpa only [Pi.zero_apply, zero_add] using this)
    (fun a b g => by simp only [waveResp]; ring) a b]
  ring

end

/-! ## Enlarging -/

section
variable {d Ot : Vec3} {Et : Mat3} (hd : ∀ i, 0 < d i) (o : Vec3) {L : ℝ} (hL : 0 < L)
include hd hL

theorem boxL_scale : boxL o (fun i => o i + L * d i) Ot Et = L * boxL 0 d Ot Et := by
  unfold boxL
  rw [box_enlarged 0 hL o hd]
  rfl

theorem boxLamb_scale : boxLamb o (fun i => o i + L * d i) Ot Et = boxLamb 0 d Ot Et / L := by
  unfold boxLamb
  rw [box_enlarged 0 hL o hd]
  rfl

theorem image_scale (g : Fin 3 → ℤ) :
    gridVec (boxBasis o (fun i => o i + L * d i) Ot Et) g = fun m => L * gridVec (boxBasis 0 d Ot Et) g m := by
  rw [basis_scale hL o hd, gridVec_scale]

theorem wave_scale (g : Fin 3 → ℤ) :
    gridVec (k_basis_vectors (boxL o (fun i => o i + L * d i) Ot Et) (boxBasis o (fun i => o i + L * d i) Ot Et)) g
      = fun m => gridVec (k_basis_vectors (boxL 0 d Ot Et) (boxBasis 0 d Ot Et)) g m / L := by
  have hl : 0 < boxL 0 d Ot Et := boxLattice_L_nonneg 0 0 d Ot Et hd
  have hkb : k_basis_vectors (boxL o (fun i => o i + L * d i) Ot Et) (boxBasis o (fun i => o i + L * d i) Ot Et)
      = fun k i => 1 / L * k_basis_vectors (boxL 0 d Ot Et) (boxBasis 0 d Ot Et) k i := by
    rw [basis_scale hL o hd, boxL_scale hd o hL]
    generalize boxBasis 0 d Ot Et = B
    generalize boxL 0 d Ot Et = l at hl
    funext k i
    unfold k_basis_vectors
    rw [mul_pow, mul_inv]
    fin_cases k <;> fin_cases i <;> simp [npCross] <;> field_simp
  rw [hkb, gridVec_scale]
  funext m
  ring

theorem slackI_scale (a b : ℝ) (l1 l2 : Load) (r : Vec3) : slackI o (fun i => o i + L * d i) Ot Et l1 l2 a b r
    = 1 / L ^ (1 + deg l1 + deg l2) * slackI 0 d Ot Et l1 l2 (a / L) (b / L) fun m => r m / L := by
  have e : r = fun m => L * (r m / L) := by funext m; field_simp
  have e1 : ∀ x : Vec3, (fun m => r m + L * x m) = fun m => L * (r m / L + x m) := by
    intro x; funext m; field_simp
  have n1 : ∀ g, nearResp (boxLamb o (fun i => o i + L * d i) Ot Et) a b l1 l2
      (fun m => r m + gridVec (boxBasis o (fun i => o i + L * d i) Ot Et) g m)
      = 1 / L ^ (1 + deg l1 + deg l2) * nearResp (boxLamb 0 d Ot Et) (a / L) (b / L) l1 l2
        fun m => r m / L + gridVec (boxBasis 0 d Ot Et) g m := by
    intro g
    rw [image_scale hd o hL, e1, boxLamb_scale hd o hL, nearResp_chain, nearResp_chain]
    exact chain_scale hL (scr_scale hL _) a b l1 l2 fun m => r m / L + gridVec (boxBasis 0 d Ot Et) g m
  have n3 : chainResp (smoothChain (boxLamb o (fun i => o i + L * d i) Ot Et)) a b l1 l2 r
      = 1 / L ^ (1 + deg l1 + deg l2)
        * chainResp (smoothChain (boxLamb 0 d Ot Et)) (a / L) (b / L) l1 l2 fun m => r m / L := by
    rw [boxLamb_scale hd o hL]
    have := chain_scale hL (smoothChain_scale hL (boxLamb 0 d Ot Et)) a b l1 l2 fun m => r m / L
    rwa [← e] at this
  unfold slackI
  rw [n3, mul_sub, ← tsum_mul_left]
  congr 1
  refine tsum_congr fun g => ?_
  split_ifs
  · rw [mul_zero]
  · exact n1 g

theorem slackW_scale (a b : ℝ) (l1 l2 : Load) (r : Vec3) : slackW o (fun i => o i + L * d i) Ot Et l1 l2 a b r
    = 1 / L ^ (1 + deg l1 + deg l2) * slackW 0 d Ot Et l1 l2 (a / L) (b / L) fun m => r m / L := by
  have e : r = fun m => L * (r m / L) := by funext m; field_simp
  have n2 : ∀ g, waveResp (boxLamb o (fun i => o i + L * d i) Ot Et) a b l1 l2 r
      (gridVec (k_basis_vectors (boxL o (fun i => o i + L * d i) Ot Et) (boxBasis o (fun i => o i + L * d i) Ot Et)) g)
      = L ^ 2 / L ^ (deg l1 + deg l2) * waveResp (boxLamb 0 d Ot Et) (a / L) (b / L) l1 l2 (fun m => r m / L)
        (gridVec (k_basis_vectors (boxL 0 d Ot Et) (boxBasis 0 d Ot Et)) g) := by
    intro g
    rw [wave_scale hd o hL, boxLamb_scale hd o hL]
    have := waveResp_scale hL (boxLamb 0 d Ot Et) a b l1 l2 (fun m => r m / L)
      (gridVec (k_basis_vectors (boxL 0 d Ot Et) (boxBasis 0 d Ot Et)) g)
    rwa [← e] at this
  have hl : 0 < boxL 0 d Ot Et := boxLattice_L_nonneg 0 0 d Ot Et hd
  have e2 : 1 / ((L * boxL 0 d Ot Et) ^ 3) * (L ^ 2 / L ^ (deg l1 + deg l2))
      = 1 / L ^ (1 + deg l1 + deg l2) * (1 / boxL 0 d Ot Et ^ 3) := by
    rw [show 1 + deg l1 + deg l2 = 1 + (deg l1 + deg l2) by ring]
    generalize deg l1 + deg l2 = n
    rw [pow_add, pow_one]
    field_simp
  have e3 : (∑' g, if g = 0 then 0 else waveResp (boxLamb o (fun i => o i + L * d i) Ot Et) a b l1 l2 r
      (gridVec (k_basis_vectors (boxL o (fun i => o i + L * d i) Ot Et) (boxBasis o (fun i => o i + L * d i) Ot Et)) g))
      = L ^ 2 / L ^ (deg l1 + deg l2) * ∑' g, if g = 0 then 0 else waveResp (boxLamb 0 d Ot Et) (a / L) (b / L) l1 l2
        (fun m => r m / L) (gridVec (k_basis_vectors (boxL 0 d Ot Et) (boxBasis 0 d Ot Et)) g) := by
    rw [← tsum_mul_left]
    refine tsum_congr fun g => ?_
    by_cases hg : g = 0
    · rw [if_pos hg, if_pos hg, mul_zero]
    · rw [if_neg hg, if_neg hg]
      exact n2 g
  unfold slackW
  rw [e3, ← mul_assoc, ← mul_assoc, ← e2, boxL_scale hd o hL]

end

section
variable {d Ot : Vec3} {Et : Mat3} (hd : ∀ i, 0 < d i) (hV : vol (boxBasis 0 d Ot Et) = boxL 0 d Ot Et ^ 3) (o : Vec3)
include hd hV

omit hd hV in
theorem small_tendsto {f : ℝ → ℝ → Vec3 → ℝ} {l1 l2 : Load}
    (hq : ∀ a b y, f a b y = f 0 0 y + a ^ 2 * (f 1 0 y - f 0 0 y) + b ^ 2 * (f 0 1 y - f 0 0 y))
    (ht : ∀ a b, Tendsto (f a b) (𝓝 0) (𝓝 (f a b 0))) (a b : ℝ) (r : Vec3) :
    Tendsto (fun L : ℝ => 1 / L ^ (1 + deg l1 + deg l2) * f (a / L) (b / L) fun m => r m / L) atTop (𝓝 0) := by
  have h1 := quad_tendsto hq ht (div_tendsto_zero a) (div_tendsto_zero b) (vec_div_tendsto_zero r)
  have h2 : Tendsto (fun L : ℝ => 1 / L ^ (1 + deg l1 + deg l2)) atTop (𝓝 0) :=
    tendsto_const_nhds.div_atTop (tendsto_pow_atTop (by omega))
  have := h2.mul h1
  rwa [zero_mul] at this

theorem slackI_large (a b : ℝ) (l1 l2 : Load) (r : Vec3) :
    Tendsto (fun L => slackI o (fun i => o i + L * d i) Ot Et l1 l2 a b r) atTop (𝓝 0) := by
  refine (small_tendsto (l1 := l1) (l2 := l2) (slackI_quad (bl := 0) hd hV l1 l2)
    (fun a b => slackI_near_tendsto (bl := 0) hd hV a b l1 l2) a b r).congr' ?_
  filter_upwards [eventually_gt_atTop 0] with L hL
  rw [slackI_scale hd o hL]

theorem slackW_large (a b : ℝ) (l1 l2 : Load) (r : Vec3) :
    Tendsto (fun L => slackW o (fun i => o i + L * d i) Ot Et l1 l2 a b r) atTop (𝓝 0) := by
  refine (small_tendsto (l1 := l1) (l2 := l2) (slackW_quad (bl := 0) hd hV l1 l2)
    (fun a b => slackW_near_tendsto (bl := 0) hd hV a b l1 l2) a b r).congr' ?_
  filter_upwards [eventually_gt_atTop 0] with L hL
  rw [slackW_scale hd o hL]

omit hV in
theorem vol_scale (hV : vol (boxBasis 0 d Ot Et) = boxL 0 d Ot Et ^ 3) {L : ℝ} (hL : 0 < L) :
    vol (boxBasis o (fun i => o i + L * d i) Ot Et) = boxL o (fun i => o i + L * d i) Ot Et ^ 3 := by
  rw [basis_scale hL o hd, boxL_scale hd o hL, mul_pow, ← hV]
  simp only [vol]
  ring

/-- Lattice vectors other than zero are far away in a large box. -/
theorem far_eventually (r : Vec3) (c : ℝ) : ∀ᶠ L : ℝ in atTop, ∀ v,
    InLattice (boxBasis o (fun i => o i + L * d i) Ot Et) v → v ≠ 0 → c < len fun m => r m + v m := by
  obtain ⟨k, hk, hg⟩ := le_len_grid (box_spans (bl := 0) hd hV)
  filter_upwards [eventually_gt_atTop ((len r + c) / k), eventually_gt_atTop 0] with L h1 hL v hv hv0
  obtain ⟨g, rfl⟩ := (inLattice_grid _).mp hv
  have hg0 : g ≠ 0 := fun e => hv0 (by rw [e, gridVec_zero])
  rw [image_scale hd o hL]
  have h2 : len (fun m => L * gridVec (boxBasis 0 d Ot Et) g m) = L * len (gridVec (boxBasis 0 d Ot Et) g) :=
    len_smul hL.le _
  have h3 := len_add_le (fun m => r m + L * gridVec (boxBasis 0 d Ot Et) g m) (fun m => -r m)
  have e : (fun m => (r m + L * gridVec (boxBasis 0 d Ot Et) g m) + -r m)
      = fun m => L * gridVec (boxBasis 0 d Ot Et) g m := by funext m; ring
  have e' : len (fun m => -r m) = len r := by unfold len; simp
  rw [e, e', h2] at h3
  rw [div_lt_iff₀ hk] at h1
  have h4 : k ≤ len (gridVec (boxBasis 0 d Ot Et) g) := by
    have := hg g
    have := one_le_norm hg0
    nlinarith
  have h5 : L * k ≤ L * len (gridVec (boxBasis 0 d Ot Et) g) := mul_le_mul_of_nonneg_left h4 hL.le
  linarith

theorem lattice_clear {r : Vec3} (hr : r ≠ 0) : ∀ᶠ L : ℝ in atTop, ∀ v,
    InLattice (boxBasis o (fun i => o i + L * d i) Ot Et) v → (fun m => r m + v m) ≠ 0 := by
  filter_upwards [far_eventually hd hV o r 0] with L h v hv e
  by_cases h0 : v = 0
  · subst h0; exact hr (by simpa using e)
  · have := h v hv h0
    rw [e] at this
    simp [len] at this

theorem arrayResp_large (a b : ℝ) (l1 l2 : Load) {r : Vec3} (hr : r ≠ 0) :
    Tendsto (fun L => arrayResp (boxLamb o (fun i => o i + L * d i) Ot Et) (boxL o (fun i => o i + L * d i) Ot Et ^ 3)
      (boxBasis o (fun i => o i + L * d i) Ot Et) a b l1 l2 r) atTop (𝓝 (response a b l1 l2 r)) := by
  have h := ((slackI_large hd hV o a b l1 l2 r).add (slackW_large hd hV o a b l1 l2 r)).const_add (response a b l1 l2 r)
  rw [add_zero, add_zero] at h
  refine h.congr' ?_
  filter_upwards [lattice_clear hd hV o hr, eventually_gt_atTop 0] with L hc hL
  rw [arrayResp_slack (fun i => by nlinarith [hd i]) (vol_scale hd o hV hL) a b l1 l2 hc]

theorem imagesResp_large (a b : ℝ) (l1 l2 : Load) {r : Vec3} (hr : r ≠ 0) :
    Tendsto (fun L => imagesResp (boxLamb o (fun i => o i + L * d i) Ot Et)
      (boxBasis o (fun i => o i + L * d i) Ot Et) a b l1 l2 r) atTop (𝓝 (response a b l1 l2 r)) := by
  have h := (slackI_large hd hV o a b l1 l2 r).const_add (response a b l1 l2 r)
  rw [add_zero] at h
  refine h.congr' ?_
  filter_upwards [lattice_clear hd hV o hr, eventually_gt_atTop 0] with L hc hL
  rw [imagesResp_slack (fun i => by nlinarith [hd i]) (vol_scale hd o hV hL) a b l1 l2 hc]

theorem arrayCode_large (ss : Bool) (a b : ℝ) (c1 c2 : Comp) {r : Vec3} (hr : r ≠ 0) :
    Tendsto (fun L => arrayCode (boxLamb o (fun i => o i + L * d i) Ot Et) (boxL o (fun i => o i + L * d i) Ot Et ^ 3)
      (boxBasis o (fun i => o i + L * d i) Ot Et) ss a b c1 c2 r) atTop (𝓝 (limMob ss a b c1 c2 r)) := by
  have hG := fun a b c1 c2 => mobOf_tendsto (fun l1 l2 => arrayResp_large hd hV o a b l1 l2 hr) c1 c2
  have hI := fun a b c1 c2 => mobOf_tendsto (fun l1 l2 => imagesResp_large hd hV o a b l1 l2 hr) c1 c2
  simp only [← pairMob_mobOf] at hG hI
  have hS : ∀ c1 c2, Tendsto (fun L => if ss = true then
      imagesMob (boxLamb o (fun i => o i + L * d i) Ot Et) (boxBasis o (fun i => o i + L * d i) Ot Et) a b c1 c2 r
      else imagesMob (boxLamb o (fun i => o i + L * d i) Ot Et) (boxBasis o (fun i => o i + L * d i) Ot Et) b a c1 c2 r)
      atTop (𝓝 (if ss = true then pairMob a b c1 c2 r else pairMob b a c1 c2 r)) := by
    intro c1 c2
    cases ss
    · exact hI b a c1 c2
    · exact hI a b c1 c2
  cases c1 with
  | f i =>
    cases c2 with
    | f j => exact hG a b (.f i) (.f j)
    | t j => exact hS (.f i) (.t j)
    | s q => exact hS (.f i) (.s q)
  | t i =>
    cases c2 with
    | f j => exact hS (.t i) (.f j)
    | t j => exact hG a b (.t i) (.t j)
    | s q =>
      simp only [arrayCode, limMob]
      rw [pair_ts a b a (Real.sqrt (5 / 3) * b) _ _ hr]
      exact hG a (Real.sqrt (5 / 3) * b) (.t i) (.s q)
  | s p =>
    cases c2 with
    | f j => exact hS (.s p) (.f j)
    | t j =>
      simp only [arrayCode, limMob]
      rw [pair_st a b (Real.sqrt (5 / 3) * a) b _ _ hr]
      exact hG (Real.sqrt (5 / 3) * a) b (.s p) (.t j)
    | s q => exact hG a b (.s p) (.s q)

theorem arraySelf_large (c mu a : ℝ) (c1 c2 : Comp) :
    Tendsto (fun L => arraySelf o (fun i => o i + L * d i) Ot Et c mu a c1 c2) atTop (𝓝 (selfMob mu a c1 c2)) := by
  have hr : ∀ a b l1 l2, Tendsto (fun L => arrayRest o (fun i => o i + L * d i) Ot Et a b l1 l2) atTop (𝓝 0) := by
    intro a b l1 l2
    have := (slackI_large hd hV o a b l1 l2 0).add (slackW_large hd hV o a b l1 l2 0)
    rw [add_zero] at this
    simpa only [arrayRest_slack] using this
  have hz : ∀ c1 c2, mobOf (fun _ _ => 0) c1 c2 = 0 := by
    have f0 : ∀ p, five (fun _ _ => 0) p = 0 := fun p => by fin_cases p <;> simp [five]
    intro c1 c2
    cases c1 <;> cases c2 <;> simp [mobOf, f0]
  have h := fun a b c1 c2 => (mobOf_tendsto (fun l1 l2 => hr a b l1 l2) c1 c2).const_mul c
  simp only [hz, mul_zero] at h
  have hs := fun c1 c2 => (h a a c1 c2).const_add (selfMob mu a c1 c2)
  simp only [add_zero] at hs
  cases c1 <;> cases c2 <;> simp only [arraySelf]
  · exact hs _ _
  · exact tendsto_const_nhds
  · exact tendsto_const_nhds
  · exact tendsto_const_nhds
  · rename_i i j
    have h3 : Tendsto (fun L => c * (if i = j then 40 * boxLamb o (fun i => o i + L * d i) Ot Et ^ 3
        / (3 * Real.sqrt Real.pi) else 0)) atTop (𝓝 0) := by
      split_ifs
      · have := (((div_tendsto_zero (boxLamb 0 d Ot Et)).pow 3).const_mul 40).div_const (3 * Real.sqrt Real.pi)
        have := this.const_mul c
        rw [zero_pow (by norm_num), mul_zero, zero_div, mul_zero] at this
        refine this.congr' ?_
        filter_upwards [eventually_gt_atTop 0] with L hL
        rw [boxLamb_scale hd o hL]
      · simp
    have := (hs (.t i) (.t j)).add h3
    rwa [add_zero] at this
  · exact h _ _ _ _
  · exact tendsto_const_nhds
  · exact h _ _ _ _
  · exact hs _ _

end

end SD.Ewald
