import Verif.Props.Lubrication
import Verif.Lemmas.GapModes

/-!
# Two nearly touching spheres in a linear flow (C46)
-/

set_option autoImplicit false

namespace SD

open Spec TwoSphere Lub Nearfield

theorem gapR_balanced {a b : ℝ} (ha : 0 < a) (hb : 0 < b) (xi : ℝ) : Balanced (gapR a b xi) := by
  have h := C46_reciprocal ha hb xi
  constructor <;>
    simp only [gapR, dimS, flipS, Matrix.cons_val_zero, Matrix.cons_val_one]
  · linear_combination 6 * Real.pi * h.XA
  · linear_combination 6 * Real.pi * h.YA
  · linear_combination 8 * Real.pi * h.XC
  · linear_combination 8 * Real.pi * h.YC
  · linear_combination 20 / 3 * Real.pi * h.XM
  · linear_combination 20 / 3 * Real.pi * h.YM
  · linear_combination 20 / 3 * Real.pi * h.ZM

theorem gap_resistance {a b : ℝ} (ha : 0 < a) (hb : 0 < b) (xi : ℝ) {d : Fin 3 → ℝ} (hd : dotp d d = 1)
    {U O F T : Fin 2 → Fin 3 → ℝ} {E S : Fin 2 → Fin 3 → Fin 3 → ℝ} (hE : ∀ β, SymTraceless (E β))
    (h : Resistance (gapR a b xi) d U O E F T S) (x : Fin 2) (c : Comp) :
    gapLoad a b d U O E xi x c = comps (F x) (T x) (S x) c := by
  rw [resistance_comps hd hE h]
  unfold gapLoad
  dsimp only
  have e : ∀ y c2, twoNear ![nfOwn xi (b / a), nfOwn xi (a / b)] ![nfOther xi (b / a), nfOther xi (a / b)]
      ![a, b] d x y c c2 = full (gapR a b xi) d x y c c2 := fun y c2 =>
    twoNear_full (gapR_balanced ha hb xi) hd (by simp [gapR, PairScalars.at]) (by simp [gapR, PairScalars.at])
      (by simp [gapR, PairScalars.at]) (by simp [gapR, PairScalars.at]) x y c c2
  simp only [e]

/-- The loads in the linear flow, through the resistance scalars. -/
noncomputable def flowF (R : PairScalars) (r : ℝ) (d V w : Fin 3 → ℝ) (E : Fin 3 → Fin 3 → ℝ) (α : Fin 2)
    (i : Fin 3) : ℝ :=
  par d V * d i * (R.XA α 0 + R.XA α 1) + per d V i * (R.YA α 0 + R.YA α 1)
    + cross w d i * (R.YA α 1 * r + -(R.YB 0 α) + -(R.YB 1 α))
    + par d (app E d) * d i * (R.XA α 1 * r + R.XG 0 α + R.XG 1 α)
    + per d (app E d) i * (R.YA α 1 * r + 2 * R.YG 0 α + 2 * R.YG 1 α)

@[inherit_doc flowF]
noncomputable def flowT (R : PairScalars) (r : ℝ) (d V w : Fin 3 → ℝ) (E : Fin 3 → Fin 3 → ℝ) (α : Fin 2)
    (i : Fin 3) : ℝ :=
  cross V d i * (R.YB α 0 + R.YB α 1) + par d w * d i * (R.XC α 0 + R.XC α 1)
    + per d w i * (-(R.YB α 1 * r) + R.YC α 0 + R.YC α 1)
    + -cross d (app E d) i * (R.YB α 1 * r + -2 * R.YH 0 α + -2 * R.YH 1 α)

@[inherit_doc flowF]
noncomputable def flowS (R : PairScalars) (r : ℝ) (d V w : Fin 3 → ℝ) (E : Fin 3 → Fin 3 → ℝ) (α : Fin 2)
    (i j : Fin 3) : ℝ :=
  (d i * d j - dlt i j / 3) * par d V * (R.XG α 0 + R.XG α 1)
    + (d i * per d V j + per d V i * d j) * (R.YG α 0 + R.YG α 1)
    + (d i * cross w d j + cross w d i * d j) * (R.YG α 1 * r + R.YH α 0 + R.YH α 1)
    + 3 / 2 * ((d i * d j - dlt i j / 3) * par d (app E d)) * (2 / 3 * (R.XG α 1 * r) + R.XM α 0 + R.XM α 1)
    + (d i * per d (app E d) j + per d (app E d) i * d j) * (R.YG α 1 * r + R.YM α 0 + R.YM α 1)
    + zz d E i j * (R.ZM α 0 + R.ZM α 1)

theorem flow_resistance (R : PairScalars) (r : ℝ) {d : Fin 3 → ℝ} (hd : dotp d d = 1) (V w : Fin 3 → ℝ)
    {E : Fin 3 → Fin 3 → ℝ} (hE : SymTraceless E) :
    Resistance R d (fun y => linearFlow V w E ((![fun _ => 0, fun i => r * d i] : Fin 2 → Fin 3 → ℝ) y))
      (fun _ => w) (fun _ => E) (flowF R r d V w E) (flowT R r d V w E) (flowS R r d V w E) := by
  have u0 : linearFlow V w E ((![fun _ => 0, fun i => r * d i] : Fin 2 → Fin 3 → ℝ) 0) = V := by
    funext i
    simp only [linearFlow, Matrix.cons_val_zero, app, dotp]
    have : cross w (fun _ => 0) i = 0 := by
      revert i; apply fin3 <;> simp [cross0, cross1, cross2]
    rw [this]; ring
  have u1 : linearFlow V w E ((![fun _ => 0, fun i => r * d i] : Fin 2 → Fin 3 → ℝ) 1)
      = fun i => V i + r * cross w d i + r * app E d i := by
    funext i
    change V i + cross w (fun i => r * d i) i + app E (fun i => r * d i) i = _
    simp only [app, dotp]
    have : cross w (fun i => r * d i) i = r * cross w d i := by
      revert i; apply fin3 <;> simp only [cross0, cross1, cross2] <;> ring
    rw [this]; ring
  have hp : ∀ p q t : Fin 3 → ℝ, par d (fun i => p i + r * q i + r * t i)
      = par d p + r * par d q + r * par d t := by intro p q t; simp only [par, dotp]; ring
  have hw : par d (cross w d) = 0 := par_cross' w
  have hper : ∀ i, per d (fun i => V i + r * cross w d i + r * app E d i) i
      = per d V i + r * cross w d i + r * per d (app E d) i := by
    intro i
    have := hp V (cross w d) (app E d)
    simp only [par] at this hw
    simp only [per, this, hw]; ring
  have hcr : ∀ i, cross (fun i => V i + r * cross w d i + r * app E d i) d i
      = cross V d i + r * cross (cross w d) d i + r * cross (app E d) d i := by
    apply fin3 <;> simp only [cross0, cross1, cross2] <;> ring
  have anti : ∀ (p : Fin 3 → ℝ) i, cross p d i = -cross d p i := by
    intro p; apply fin3 <;> simp only [cross0, cross1, cross2] <;> ring
  have hcc : ∀ i, cross (cross w d) d i = -per d w i := by
    intro i; rw [anti, cross_cross' hd]
  constructor
  · intro α i
    rw [Fin.sum_univ_two, u0, u1]
    simp only [kkA_app, kkB_tr, kkG_tr _ _ _ hE, hp, hw, hper]
    unfold flowF
    rw [anti w]; ring
  · intro α i
    rw [Fin.sum_univ_two, u0, u1]
    simp only [kkA_app, kkB_app, kkH_tr _ _ hE, hcr, hcc]
    unfold flowT
    rw [anti (app E d)]; ring
  · intro α i j
    rw [Fin.sum_univ_two, u0, u1]
    simp only [kkG_app, kkH_app, kkM_app _ _ _ _ hE, hp, hw, hper]
    unfold flowS
    rw [anti w, anti w]; ring

theorem flow_comps {a b : ℝ} (ha : 0 < a) (hb : 0 < b) {d : Fin 3 → ℝ} (hd : dotp d d = 1) (V w : Fin 3 → ℝ)
    {E : Fin 3 → Fin 3 → ℝ} (hE : SymTraceless E) (xi : ℝ) (x : Fin 2) (c : Comp) :
    flowLoad a b d V w E xi x c = comps (flowF (gapR a b xi) ((a + b) * (2 + xi) / 2) d V w E x)
      (flowT (gapR a b xi) ((a + b) * (2 + xi) / 2) d V w E x)
      (flowS (gapR a b xi) ((a + b) * (2 + xi) / 2) d V w E x) c :=
  gap_resistance ha hb xi hd (fun _ => hE) (flow_resistance _ _ hd V w hE) x c

/-- Force on the first sphere when it moves alone. -/
theorem gap_force {a b : ℝ} (ha : 0 < a) (hb : 0 < b) {d : Fin 3 → ℝ} (hd : dotp d d = 1) (U : Fin 3 → ℝ)
    (xi : ℝ) (i : Fin 3) : gapLoad a b d ![U, 0] 0 0 xi 0 (.f i)
      = 6 * Real.pi * a * (X11A xi (b / a) * (dotp d U * d i) + Y11A xi (b / a) * per d U i) := by
  have hz : SymTraceless (0 : Fin 3 → Fin 3 → ℝ) := ⟨fun _ _ => rfl, by simp⟩
  obtain ⟨F, hF⟩ : ∃ F : Fin 2 → Fin 3 → ℝ, F = _ := ⟨_, rfl⟩
  obtain ⟨T, hT⟩ : ∃ T : Fin 2 → Fin 3 → ℝ, T = _ := ⟨_, rfl⟩
  obtain ⟨S, hS⟩ : ∃ S : Fin 2 → Fin 3 → Fin 3 → ℝ, S = _ := ⟨_, rfl⟩
  have h : Resistance (gapR a b xi) d ![U, 0] 0 0 F T S :=
    ⟨fun α i => congrFun (congrFun hF α) i, fun α i => congrFun (congrFun hT α) i,
      fun α i j => congrFun (congrFun (congrFun hS α) i) j⟩
  rw [gap_resistance (E := 0) ha hb xi hd (fun _ => hz) h]
  change F 0 i = _
  rw [h.first, Fin.sum_univ_two]
  simp [kkA_app, gapR, dimS, nfOwn, par]
  ring

section modes
variable {a b : ℝ} (ha : 0 < a) (hb : 0 < b) (d V w : Fin 3 → ℝ) (E : Fin 3 → Fin 3 → ℝ) (α : Fin 2)
include ha hb

theorem flowF_smooth (i : Fin 3) :
    SettlesSmoothly fun xi => flowF (gapR a b xi) ((a + b) * (2 + xi) / 2) d V w E α i := by
  unfold flowF
  revert α
  intro α
  fin_cases α
  · exact smooth_add (smooth_add (smooth_add (smooth_add (smooth_mul _ (mode_XA0 ha hb))
      (smooth_mul _ (mode_YA0 ha hb))) (smooth_mul _ (mode_YAB0 ha hb))) (smooth_mul _ (mode_XAG0 ha hb)))
      (smooth_mul _ (mode_YAG0 ha hb))
  · exact smooth_add (smooth_add (smooth_add (smooth_add (smooth_mul _ (mode_XA1 ha hb))
      (smooth_mul _ (mode_YA1 ha hb))) (smooth_mul _ (mode_YAB1 ha hb))) (smooth_mul _ (mode_XAG1 ha hb)))
      (smooth_mul _ (mode_YAG1 ha hb))

theorem flowT_smooth (i : Fin 3) :
    SettlesSmoothly fun xi => flowT (gapR a b xi) ((a + b) * (2 + xi) / 2) d V w E α i := by
  unfold flowT
  fin_cases α
  · exact smooth_add (smooth_add (smooth_add (smooth_mul _ (mode_YB0 ha hb))
      (smooth_mul _ (mode_XC0 ha hb))) (smooth_mul _ (mode_YBC0 ha hb))) (smooth_mul _ (mode_YBH0 ha hb))
  · exact smooth_add (smooth_add (smooth_add (smooth_mul _ (mode_YB1 ha hb))
      (smooth_mul _ (mode_XC1 ha hb))) (smooth_mul _ (mode_YBC1 ha hb))) (smooth_mul _ (mode_YBH1 ha hb))

theorem flowS_settles (i j : Fin 3) :
    Settles fun xi => flowS (gapR a b xi) ((a + b) * (2 + xi) / 2) d V w E α i j := by
  unfold flowS
  fin_cases α
  · exact settles_add (settles_add (smooth_settles (smooth_add (smooth_add (smooth_add
      (smooth_mul _ (mode_XG0 ha hb)) (smooth_mul _ (mode_YG0 ha hb))) (smooth_mul _ (mode_YGH0 ha hb)))
      (smooth_mul _ (mode_XGM0 ha hb)))) (settles_mul _ (mode_YGM0 ha hb)))
      (smooth_settles (smooth_mul _ (mode_ZM0 ha hb)))
  · exact settles_add (settles_add (smooth_settles (smooth_add (smooth_add (smooth_add
      (smooth_mul _ (mode_XG1 ha hb)) (smooth_mul _ (mode_YG1 ha hb))) (smooth_mul _ (mode_YGH1 ha hb)))
      (smooth_mul _ (mode_XGM1 ha hb)))) (settles_mul _ (mode_YGM1 ha hb)))
      (smooth_settles (smooth_mul _ (mode_ZM1 ha hb)))

theorem flowS_smooth (hE : ∀ i, per d (app E d) i = 0) (i j : Fin 3) :
    SettlesSmoothly fun xi => flowS (gapR a b xi) ((a + b) * (2 + xi) / 2) d V w E α i j := by
  unfold flowS
  have e : ∀ t u v : ℝ, u + (d i * per d (app E d) j + per d (app E d) i * d j) * t + v = u + v := by
    intro t u v; rw [hE i, hE j]; ring
  simp only [e]
  fin_cases α
  · exact smooth_add (smooth_add (smooth_add (smooth_add
      (smooth_mul _ (mode_XG0 ha hb)) (smooth_mul _ (mode_YG0 ha hb))) (smooth_mul _ (mode_YGH0 ha hb)))
      (smooth_mul _ (mode_XGM0 ha hb))) (smooth_mul _ (mode_ZM0 ha hb))
  · exact smooth_add (smooth_add (smooth_add (smooth_add
      (smooth_mul _ (mode_XG1 ha hb)) (smooth_mul _ (mode_YG1 ha hb))) (smooth_mul _ (mode_YGH1 ha hb)))
      (smooth_mul _ (mode_XGM1 ha hb))) (smooth_mul _ (mode_ZM1 ha hb))

end modes

theorem five_via {P : (ℝ → ℝ) → Prop} (hadd : ∀ {f g}, P f → P g → P fun x => f x + g x)
    (hmul : ∀ {f} (k : ℝ), P f → P fun x => k * f x) {S : ℝ → Fin 3 → Fin 3 → ℝ}
    (h : ∀ i j, P fun xi => S xi i j) (p : Fin 5) : P fun xi => five (S xi) p := by
  fin_cases p
  · exact hadd (hmul _ (h 0 0)) (hmul _ (h 1 1))
  · exact hmul _ (h 0 1)
  · exact hadd (hmul _ (h 0 0)) (hmul _ (h 1 1))
  · exact hmul _ (h 0 2)
  · exact hmul _ (h 1 2)

/-- **C46** (rigid motion and linear flow). Two spheres of any sizes are held still in a linear flow, or move as
one rigid body through it: every force, torque and stresslet the near-field functions give has a finite limit as
the gap closes. The terms in `1 / xi` and `log xi` cancel between the two spheres. -/
theorem C46_linear_flow {a b : ℝ} (ha : 0 < a) (hb : 0 < b) {d : Fin 3 → ℝ} (hd : dotp d d = 1)
    (V w : Fin 3 → ℝ) {E : Fin 3 → Fin 3 → ℝ} (hE : SymTraceless E) (x : Fin 2) (c : Comp) :
    Settles fun xi => flowLoad a b d V w E xi x c := by
  simp only [flow_comps ha hb hd V w hE]
  cases c with
  | f i => exact smooth_settles (flowF_smooth ha hb d V w E x i)
  | t i => exact smooth_settles (flowT_smooth ha hb d V w E x i)
  | s p => exact five_via settles_add settles_mul (flowS_settles ha hb d V w E x) p

/-- **C46** (slopes). The `xi log xi` terms cancel too, so that these limits are approached with a finite slope:
for forces and torques in every linear flow, and for stresslets in every linear flow whose strain does not shear
the pair across its axis, which includes rigid motion. -/
theorem C46_smooth {a b : ℝ} (ha : 0 < a) (hb : 0 < b) {d : Fin 3 → ℝ} (hd : dotp d d = 1)
    (V w : Fin 3 → ℝ) {E : Fin 3 → Fin 3 → ℝ} (hE : SymTraceless E) (x : Fin 2) (c : Comp)
    (hc : (∃ p, c = .s p) → ∃ k, ∀ i, app E d i = k * d i) :
    SettlesSmoothly fun xi => flowLoad a b d V w E xi x c := by
  simp only [flow_comps ha hb hd V w hE]
  cases c with
  | f i => exact flowF_smooth ha hb d V w E x i
  | t i => exact flowT_smooth ha hb d V w E x i
  | s p =>
    obtain ⟨k, hk⟩ := hc ⟨p, rfl⟩
    refine five_via smooth_add smooth_mul (flowS_smooth ha hb d V w E x fun i => ?_) p
    have e : dotp d (app E d) = k * dotp d d := by
      simp only [dotp, hk]; ring
    simp only [per, e, hd, hk]; ring

theorem rough_not_smooth {f : ℝ → ℝ} {L : ℝ} (hL : Filter.Tendsto f (nhdsWithin 0 (Set.Ioi 0)) (nhds L))
    (h : Filter.Tendsto (fun xi => (f xi - L) / xi) (nhdsWithin 0 (Set.Ioi 0)) Filter.atTop) :
    ¬SettlesSmoothly f := by
  rintro ⟨M, K, h1, h2⟩
  have := tendsto_nhds_unique h1 hL
  subst this
  exact not_tendsto_nhds_of_tendsto_atTop h K h2

/-- Shear in the plane of the first two axes. -/
def shearXY : Fin 3 → Fin 3 → ℝ := ![![0, 1, 0], ![1, 0, 0], ![0, 0, 0]]

theorem shearXY_symm : SymTraceless shearXY := by
  constructor
  · apply fin3 <;> apply fin3 <;> simp [shearXY]
  · simp [shearXY]

/-- **C46** (a coefficient that does not fit). For spheres of any sizes whose axis is sheared, the `xi log xi`
terms of the stresslets do not cancel: the coefficients `G3ym` and `G6ym` do not fit the others. -/
theorem C46_rough {a b : ℝ} (ha : 0 < a) (hb : 0 < b) (x : Fin 2) :
    ¬SettlesSmoothly fun xi => flowLoad a b ![1, 0, 0] 0 0 shearXY xi x (.s 1) := by
  have hd : dotp (![1, 0, 0] : Fin 3 → ℝ) ![1, 0, 0] = 1 := by simp [dotp]
  have hE := shearXY_symm
  simp only [flow_comps ha hb hd 0 0 hE]
  have e : ∀ R r, five (flowS R r ![1, 0, 0] 0 0 shearXY x) 1
      = Real.sqrt 2 * (R.YG x 1 * r + R.YM x 0 + R.YM x 1) := by
    intro R r
    simp [five, flowS, par, per, dotp, app, cross0, cross1, shearXY, dlt, zz]
  simp only [comps, e]
  intro hs
  have hs : SettlesSmoothly fun xi => (gapR a b xi).YG x 1 * ((a + b) * (2 + xi) / 2) + (gapR a b xi).YM x 0
      + (gapR a b xi).YM x 1 := by
    have := smooth_mul (Real.sqrt 2)⁻¹ hs
    have h2 : Real.sqrt 2 ≠ 0 := by positivity
    simpa only [inv_mul_cancel_left₀ h2] using this
  have hpi := Real.pi_pos
  revert hs
  fin_cases x
  · change ¬SettlesSmoothly fun xi => (gapR a b xi).YG 0 1 * ((a + b) * (2 + xi) / 2) + (gapR a b xi).YM 0 0
      + (gapR a b xi).YM 0 1
    rw [mode_YGM0_mix a b]
    have hp : 4 * Real.pi * a ^ 2 * (a + b) * 0 + 20 / 3 * Real.pi * a ^ 3 * 0 + 20 / 3 * Real.pi * a ^ 3 * 0
      = 0 := by ring
    have hq : 4 * Real.pi * a ^ 2 * (a + b) * -G2yg (b / a) + 20 / 3 * Real.pi * a ^ 3 * G2ym (b / a)
        + 20 / 3 * Real.pi * a ^ 3 * G5ym (b / a) = 0 := by
      simp only [G2yg, G2ym, G5ym]; field_simp; ring
    have hs : 4 * Real.pi * a ^ 2 * (a + b) * (-G3yg (b / a) + -G2yg (b / a) / 2)
        + 20 / 3 * Real.pi * a ^ 3 * G3ym (b / a) + 20 / 3 * Real.pi * a ^ 3 * G6ym (b / a)
        = 4 / 25 * Real.pi * a ^ 3 * ((b / a) ^ 2 + (b / a) ^ 4) / (1 + b / a) ^ 3 := by
      simp only [G2yg, G3yg, G3ym, G6ym]; field_simp; ring
    exact rough_not_smooth (mix_limit hp hq) (mix_rough hp hq (by rw [hs]; positivity))
  · change ¬SettlesSmoothly fun xi => (gapR a b xi).YG 1 1 * ((a + b) * (2 + xi) / 2) + (gapR a b xi).YM 1 0
      + (gapR a b xi).YM 1 1
    rw [mode_YGM1_mix a b]
    have hp : -(4 * Real.pi * b ^ 2) * (a + b) * 0 + 20 / 3 * Real.pi * b ^ 3 * 0
      + 20 / 3 * Real.pi * b ^ 3 * 0 = 0 := by ring
    have hq : -(4 * Real.pi * b ^ 2) * (a + b) * G2yg (a / b) + 20 / 3 * Real.pi * b ^ 3 * G5ym (a / b)
        + 20 / 3 * Real.pi * b ^ 3 * G2ym (a / b) = 0 := by
      simp only [G2yg, G2ym, G5ym]; field_simp; ring
    have hs : -(4 * Real.pi * b ^ 2) * (a + b) * (G3yg (a / b) + G2yg (a / b) / 2)
        + 20 / 3 * Real.pi * b ^ 3 * G6ym (a / b) + 20 / 3 * Real.pi * b ^ 3 * G3ym (a / b)
        = 4 / 25 * Real.pi * b ^ 3 * ((a / b) ^ 2 + (a / b) ^ 4) / (1 + a / b) ^ 3 := by
      simp only [G2yg, G3yg, G3ym, G6ym]; field_simp; ring
    exact rough_not_smooth (mix_limit hp hq) (mix_rough hp hq (by rw [hs]; positivity))

open Filter Topology in
/-- **C46** (approach). Sphere 1 moves with velocity `U` and its neighbour is held. Times the width of the gap, the
force tends to that of lubrication theory, `6 π (a b / (a + b)) ^ 2`, along the axis. -/
theorem C46_approach {a b : ℝ} (ha : 0 < a) (hb : 0 < b) {d : Fin 3 → ℝ} (hd : dotp d d = 1)
    (U : Fin 3 → ℝ) (i : Fin 3) :
    Tendsto (fun xi => xi * (a + b) / 2 * gapLoad a b d ![U, 0] 0 0 xi 0 (.f i)) (𝓝[>] 0)
      (𝓝 (6 * Real.pi * (a * b / (a + b)) ^ 2 * (dotp d U * d i))) := by
  have hr := fun xi => gap_force ha hb hd U xi i
  simp only [hr]
  have t1 : Tendsto (fun xi => xi * X11A xi (b / a)) (𝓝[>] 0) (𝓝 (G1xa (b / a))) := by
    simp only [X11A_lub]
    exact lub_mul _ _ _ _
  have t2 : Tendsto (fun xi => xi * Y11A xi (b / a)) (𝓝[>] 0) (𝓝 0) := by
    simp only [Y11A_lub]
    exact lub_mul _ _ _ _
  have h := ((t1.const_mul (3 * Real.pi * a * (a + b) * (dotp d U * d i))).add
    (t2.const_mul (3 * Real.pi * a * (a + b) * per d U i)))
  have e : 3 * Real.pi * a * (a + b) * (dotp d U * d i) * G1xa (b / a) + 3 * Real.pi * a * (a + b) * per d U i * 0
      = 6 * Real.pi * (a * b / (a + b)) ^ 2 * (dotp d U * d i) := by
    have : (1 : ℝ) + b / a ≠ 0 := by positivity
    simp only [G1xa, zpow_neg, zpow_ofNat]
    generalize dotp d U * d i = z
    field_simp
    ring
  rw [e] at h
  refine h.congr fun xi => ?_
  ring

open Filter Topology in
/-- **C46** (shearing). If `U` is across the axis, the force grows as the logarithm of the gap, with the
coefficient of lubrication theory. -/
theorem C46_shearing {a b : ℝ} (ha : 0 < a) (hb : 0 < b) {d : Fin 3 → ℝ} (hd : dotp d d = 1)
    {U : Fin 3 → ℝ} (hU : dotp d U = 0) (i : Fin 3) :
    Tendsto (fun xi => gapLoad a b d ![U, 0] 0 0 xi 0 (.f i) / Real.log (1 / xi)) (𝓝[>] 0)
      (𝓝 (8 / 5 * Real.pi * (a * b * (2 * a ^ 2 + a * b + 2 * b ^ 2) / (a + b) ^ 3) * U i)) := by
  simp only [fun xi => gap_force ha hb hd U xi i]
  have t : Tendsto (fun xi => Y11A xi (b / a) / Real.log (1 / xi)) (𝓝[>] 0) (𝓝 (G2ya (b / a))) := by
    simp only [Y11A_lub]
    exact lub_div _ _ _
  have hp : per d U i = U i := by simp [per, hU]
  have h := t.const_mul (6 * Real.pi * a * U i)
  have e : 6 * Real.pi * a * U i * G2ya (b / a)
      = 8 / 5 * Real.pi * (a * b * (2 * a ^ 2 + a * b + 2 * b ^ 2) / (a + b) ^ 3) * U i := by
    have : (1 : ℝ) + b / a ≠ 0 := by positivity
    simp only [G2ya, zpow_neg, zpow_ofNat]
    field_simp
    ring
  rw [e] at h
  refine h.congr fun xi => ?_
  rw [hU, hp]
  ring

/-- Nothing here is empty: two spheres, one twice as large as the other, on the diagonal of the first two axes,
in a shear flow. -/
example (x : Fin 2) (c : Comp) :
    Settles fun xi => flowLoad 1 2 ![3 / 5, 4 / 5, 0] ![1, 0, 0] ![0, 0, 1] shearXY xi x c :=
  C46_linear_flow one_pos two_pos (by simp [dotp]; norm_num) _ _ shearXY_symm x c

/-- The forces do grow when the pair is not moved as one body: one sphere is pushed against the other. -/
example : Filter.Tendsto (fun xi => xi * (1 + 2) / 2 * gapLoad 1 2 ![1, 0, 0] ![![1, 0, 0], 0] 0 0 xi 0 (.f 0))
    (nhdsWithin 0 (Set.Ioi 0)) (nhds (8 * Real.pi / 3)) := by
  have := C46_approach one_pos two_pos (d := ![1, 0, 0]) (by simp [dotp]) ![1, 0, 0] 0
  convert this using 2
  simp [dotp]
  ring

end SD
