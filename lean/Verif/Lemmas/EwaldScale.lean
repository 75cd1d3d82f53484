import Verif.Lemmas.EwaldMatrix

/-!
# How the finite-size part of the sum over images behaves at small separations and in large boxes
-/

set_option autoImplicit false

namespace SD.Ewald

open Spec Filter Topology

/-! ## Change of the unit of length -/

theorem freeChain_scale {L : ℝ} (hL : 0 < L) (n : ℕ) (s : ℝ) :
    freeChain n (L * s) = L / L ^ (2 * n) * freeChain n s := by
  unfold freeChain
  rw [mul_pow, mul_inv]
  field_simp

theorem moment_scale {L : ℝ} (hL : 0 < L) (lamb : ℝ) (n : ℕ) (w : ℝ) :
    moment (lamb / L) n (L ^ 2 * w) = 1 / L ^ (2 * n) * moment lamb n w := by
  unfold moment
  rw [← intervalIntegral.integral_const_mul]
  congr 1
  funext t
  have e1 : -((lamb / L) ^ 2 * t ^ 2) * (L ^ 2 * w) = -(lamb ^ 2 * t ^ 2) * w := by field_simp
  have e2 : (-((lamb / L) ^ 2 * t ^ 2)) ^ n = 1 / L ^ (2 * n) * (-(lamb ^ 2 * t ^ 2)) ^ n := by
    rw [show -((lamb / L) ^ 2 * t ^ 2) = (1 / L ^ 2) * (-(lamb ^ 2 * t ^ 2)) by field_simp, mul_pow, div_pow,
      one_pow, ← pow_mul]
  rw [e1, e2]; ring

theorem smoothChain_scale {L : ℝ} (hL : 0 < L) (lamb : ℝ) (n : ℕ) (s : ℝ) :
    smoothChain (lamb / L) n (L * s) = L / L ^ (2 * n) * smoothChain lamb n s := by
  unfold smoothChain
  rw [mul_pow, moment_scale hL, moment_scale hL]
  cases n with
  | zero => simp; field_simp
  | succ n =>
    simp only [Nat.add_sub_cancel]
    rw [show 2 * (n + 1) = 2 * n + 2 by ring, pow_add]
    field_simp
    ring

theorem scr_scale {L : ℝ} (hL : 0 < L) (lamb : ℝ) (n : ℕ) (s : ℝ) :
    scr (lamb / L) n (L * s) = L / L ^ (2 * n) * scr lamb n s := by
  unfold scr
  rw [freeChain_scale hL, smoothChain_scale hL]; ring

/-! ## The effect of exchanging the radii -/

/-- Rate of strain `xy` from a force along `y`: the part multiplied by the difference of the squared radii. -/
noncomputable def swapPart (g : ℕ → ℝ → ℝ) (y : Vec3) : ℝ :=
  chainResp g 1 0 (.stress 0 1) (.force 1) y - chainResp g 0 1 (.stress 0 1) (.force 1) y

theorem swap_chain (g : ℕ → ℝ → ℝ) (a b : ℝ) (y : Vec3) :
    chainResp g a b (.stress 0 1) (.force 1) y - chainResp g b a (.stress 0 1) (.force 1) y
      = (a ^ 2 - b ^ 2) * swapPart g y := by
  simp only [swapPart, chainResp, sized]; ring

theorem swap_scale {L : ℝ} (hL : 0 < L) (lamb : ℝ) (y : Vec3) :
    swapPart (scr (lamb / L)) (fun m => L * y m) = 1 / L ^ 4 * swapPart (scr lamb) y := by
  have hl : len (fun m => L * y m) = L * len y := len_smul hL.le y
  simp only [swapPart, chainResp, sized, respVal, T1, lapP, lapQ, pOf, qOf, bump, hl, scr_scale hL]
  push_cast
  field_simp
  ring

theorem swap_split (lamb : ℝ) (y : Vec3) :
    swapPart (scr lamb) y = swapPart freeChain y - swapPart (smoothChain lamb) y := by
  simp only [swapPart, scr_response]; ring

theorem swap_free {t : ℝ} (ht : 0 < t) : t ^ 4 * swapPart freeChain ![t, 0, 0] = 2 / 5 := by
  have hl : len ![t, 0, 0] = t := by
    unfold len
    rw [Fin.sum_univ_three]
    simp
    exact Real.sqrt_sq ht.le
  simp only [swapPart, chainResp, sized, respVal, T1, lapP, lapQ, pOf, qOf, bump, hl, freeChain, freeCoeff, dlt]
  simp
  field_simp
  ring

theorem swap_tendsto_smooth (lamb : ℝ) (y : Vec3) :
    Tendsto (swapPart (smoothChain lamb)) (𝓝 y) (𝓝 (swapPart (smoothChain lamb) y)) :=
  (smooth_tendsto lamb 1 0 _ _ y).sub (smooth_tendsto lamb 0 1 _ _ y)

theorem swap_tendsto_near (lamb : ℝ) {y : Vec3} (hy : y ≠ 0) :
    Tendsto (swapPart (scr lamb)) (𝓝 y) (𝓝 (swapPart (scr lamb) y)) :=
  (nearResp_tendsto lamb 1 0 (.stress 0 1) (.force 1) hy).sub (nearResp_tendsto lamb 0 1 (.stress 0 1) (.force 1) hy)

theorem axis_tendsto : Tendsto (fun t : ℝ => (![t, 0, 0] : Vec3)) (𝓝[>] 0) (𝓝 0) := by
  have : Continuous fun t : ℝ => (![t, 0, 0] : Vec3) := by
    refine continuous_pi fun i => ?_
    fin_cases i
    · exact continuous_id
    · exact continuous_const
    · exact continuous_const
  have h := this.tendsto 0
  have e : (![0, 0, 0] : Vec3) = 0 := by funext i; fin_cases i <;> rfl
  rw [e] at h
  exact h.mono_left nhdsWithin_le_nhds

/-- At small separations the sum over images is dominated by the particle itself. -/
theorem swap_near_zero (lamb : ℝ) {X X' : List Vec3} (hX : X.Perm (0 :: X')) (hX' : ∀ x ∈ X', x ≠ 0) :
    ∃ κ > 0, ∀ t, 0 < t → t < κ →
      (X.map fun x => swapPart (scr lamb) fun m => (![t, 0, 0] : Vec3) m + x m).sum ≠ 0 := by
  have key : Tendsto (fun t : ℝ => t ^ 4 * (X.map fun x => swapPart (scr lamb) fun m => (![t, 0, 0] : Vec3) m + x m).sum)
      (𝓝[>] 0) (𝓝 (2 / 5)) := by
    have h1 : Tendsto (fun r : Vec3 => (X'.map fun x => swapPart (scr lamb) fun m => r m + x m).sum) (𝓝 0)
        (𝓝 (X'.map fun x => swapPart (scr lamb) x).sum) := by
      refine list_tendsto X' fun x hx => ?_
      have hs : Tendsto (fun r : Vec3 => fun m => r m + x m) (𝓝 0) (𝓝 x) := by
        have : ContinuousAt (fun r : Vec3 => fun m => r m + x m) 0 :=
          (continuous_pi fun m => (continuous_apply m).add continuous_const).continuousAt
        have e : (fun m => (0 : Vec3) m + x m) = x := by funext m; simp
        simpa only [ContinuousAt, e] using this
      exact (swap_tendsto_near lamb (hX' x hx)).comp hs
    have h2 := (h1.sub (swap_tendsto_smooth lamb 0)).comp axis_tendsto
    have h4 : Tendsto (fun t : ℝ => t ^ 4) (𝓝[>] 0) (𝓝 0) := by
      have : Tendsto (fun t : ℝ => t ^ 4) (𝓝 0) (𝓝 (0 ^ 4)) := (continuous_pow 4).tendsto 0
      rw [zero_pow (by norm_num)] at this
      exact this.mono_left nhdsWithin_le_nhds
    have h3 := (h4.mul h2).const_add (2 / 5 : ℝ)
    rw [zero_mul, add_zero] at h3
    refine h3.congr' ?_
    filter_upwards [self_mem_nhdsWithin] with t ht
    have hsum : (X.map fun x => swapPart (scr lamb) fun m => (![t, 0, 0] : Vec3) m + x m).sum
        = swapPart (scr lamb) ![t, 0, 0]
          + (X'.map fun x => swapPart (scr lamb) fun m => (![t, 0, 0] : Vec3) m + x m).sum := by
      rw [(hX.map _).sum_eq, List.map_cons, List.sum_cons]
      congr 2
      funext m; simp
    rw [hsum, swap_split, mul_add, mul_sub, swap_free ht]
    simp only [Function.comp]
    ring
  have hne : ∀ᶠ t : ℝ in 𝓝[>] 0,
      (X.map fun x => swapPart (scr lamb) fun m => (![t, 0, 0] : Vec3) m + x m).sum ≠ 0 := by
    have := key.eventually_ne (show (2 / 5 : ℝ) ≠ 0 by norm_num)
    filter_upwards [this] with t ht h0
    exact ht (by rw [h0, mul_zero])
  rw [eventually_nhdsWithin_iff, Metric.eventually_nhds_iff] at hne
  obtain ⟨κ, hκ, h⟩ := hne
  refine ⟨κ, hκ, fun t h1 h2 => h ?_ h1⟩
  rw [Real.dist_eq, sub_zero, abs_of_pos h1]; exact h2

/-- The images of a cube of edge `L` are those of the unit cube, enlarged. -/
theorem cube_X_scale (n : ℕ) (o : Vec3) {L : ℝ} (hL : 0 < L) :
    (boxLattice n o (fun a => o a + L) 0 0).X
      = (boxLattice n 0 (fun a => (0 : Vec3) a + 1) 0 0).X.map fun x m => L * x m := by
  rw [boxLattice_X, boxLattice_X, cube_L n o hL, cube_L n 0 one_pos, List.map_map]
  have e1 : (fun g => decide (norm3 (gridVec (boxBasis o (fun i => o i + L) 0 0) g) ≤ 1.4142 * n * L))
      = fun g => decide (norm3 (gridVec (boxBasis 0 (fun i => (0 : Vec3) i + 1) 0 0) g) ≤ 1.4142 * n * 1) := by
    funext g
    rw [cube_norm o hL, cube_norm 0 one_pos, decide_eq_decide]
    constructor
    · intro h
      have : L * Real.sqrt ((g 0 : ℝ) ^ 2 + (g 1 : ℝ) ^ 2 + (g 2 : ℝ) ^ 2) ≤ L * (1.4142 * n) := by linarith
      have := le_of_mul_le_mul_left this hL
      linarith
    · intro h
      have : Real.sqrt ((g 0 : ℝ) ^ 2 + (g 1 : ℝ) ^ 2 + (g 2 : ℝ) ^ 2) ≤ 1.4142 * n := by linarith
      nlinarith
  rw [e1]
  refine List.map_congr_left fun g _ => ?_
  funext m
  simp only [Function.comp, cube_gridVec]
  ring

theorem cube_lamb (n : ℕ) (o : Vec3) {L : ℝ} (hL : 0 < L) :
    (boxLattice n o (fun a => o a + L) 0 0).lamb = Real.sqrt Real.pi / L := by
  have e : (boxLattice n o (fun a => o a + L) 0 0).lamb
    = Real.sqrt Real.pi / (boxLattice n o (fun a => o a + L) 0 0).L := rfl
  rw [e, cube_L n o hL]

/-- In a cube, exchanging the radii of two spheres matters when they are close compared with the box. -/
theorem cube_swap (n : ℕ) : ∃ κ > 0, ∀ (o : Vec3) (L t : ℝ), 0 < L → 0 < t → t < κ * L →
    ((boxLattice n o (fun a => o a + L) 0 0).X.map fun x =>
      swapPart (scr (boxLattice n o (fun a => o a + L) 0 0).lamb) fun m => (![t, 0, 0] : Vec3) m + x m).sum ≠ 0 := by
  have hp := C52_box_proper n (bl := 0) (tr := fun i => (0 : Vec3) i + 1) (fun i => by norm_num)
    (show (0 : Fin 3) ≠ 2 by decide) rest_is_shear
  obtain ⟨κ, hκ, h⟩ := swap_near_zero (Real.sqrt Real.pi) hp.1.1 (Xdash_ne_zero _)
  refine ⟨κ, hκ, fun o L t hL ht htk => ?_⟩
  have ht' : t / L < κ := by rwa [div_lt_iff₀ hL]
  have h0 := h (t / L) (div_pos ht hL) ht'
  rw [cube_X_scale n o hL, cube_lamb n o hL, List.map_map]
  intro hz
  apply h0
  have e : ∀ x : Vec3, ((fun x : Vec3 => swapPart (scr (Real.sqrt Real.pi / L)) fun m => (![t, 0, 0] : Vec3) m + x m)
      ∘ fun x m => L * x m) x
      = 1 / L ^ 4 * swapPart (scr (Real.sqrt Real.pi)) fun m => (![t / L, 0, 0] : Vec3) m + x m := by
    intro x
    rw [← swap_scale hL]
    simp only [Function.comp]
    congr 1
    funext m
    fin_cases m
    · simp; field_simp
    · simp
    · simp
  rw [List.map_congr_left fun x _ => e x, List.sum_map_mul_left] at hz
  rcases mul_eq_zero.mp hz with hz | hz
  · exact absurd hz (by positivity)
  · exact hz

end SD.Ewald
