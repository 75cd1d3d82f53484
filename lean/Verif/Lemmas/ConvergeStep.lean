import Verif.Lemmas.OpenPlaces
import Verif.Lemmas.Converge

/-!
# One frame near a motion
-/

set_option autoImplicit false

namespace SD.Lip

open Spec Filter Topology Set Move

section
variable {W : World} {S : Settings} {c : Config} {u : UserInput}

/-- The velocities of a stage are those of `velAt`. -/
theorem stage_vel (hdr : S.use_drag_Minfinity = false) (hsame : Unchanging W c u) (hx : S.extract = false) (hub : u.bl = u.tr)
    {h f : ℝ} {d q : Locs c} {last : NDMat} {reg : Bool} {lv : Vel} {st : Stage}
    (hst : generate_output_FTSUOE W (stepped S h) d.1 f last reg lv = some st)
    (hq : reg = false → (generate_Minfinity q.1.P u.mu S.bead_bead_interactions).inv = some last) :
    ∃ q' : Locs c, (q' = d ∨ q' = q) ∧ (reg = true → q' = d) ∧ (reg = false → q' = q) ∧
      (generate_Minfinity q'.1.P u.mu S.bead_bead_interactions).inv = some st.cache ∧
      ∀ z : Fin c.P.Ns → Vec3, (fun i : Fin c.P.Ns => sphereVel st i (z i)) = velAt W S c u (d, q', z) := by
  have hnp : ¬ isPeriodic u.bl u.tr := by
    rw [hub]
    intro h
    unfold isPeriodic at h
    simp at h
  have hin : ∀ f' v r w, W.input_ftsuoe d.1 f' (stepped S h).timestep v r = some w →
      ∃ Ot Et, w = { u with Ot := Ot, Et := Et } := fun f' v r w hw => by
    obtain ⟨Ot, Et, e⟩ := hsame d.1 f' (stepped S h).timestep v r d.2
    rw [e] at hw
    exact ⟨Ot, Et, (Option.some.inj hw).symm⟩
  -- where the cache comes from
  obtain ⟨q', hq1, hq2, hq3, hq4⟩ : ∃ q' : Locs c, (q' = d ∨ q' = q) ∧ (reg = true → q' = d) ∧ (reg = false → q' = q) ∧
      (generate_Minfinity q'.1.P u.mu S.bead_bead_interactions).inv = some st.cache := by
    obtain ⟨u1, R, u2, h1, h2, -⟩ := output_some hst
    obtain ⟨Ot, Et, rfl⟩ := hin _ _ _ _ h1
    unfold stageResistance at h2
    rw [if_neg hnp] at h2
    have h3 := (grand_some h2).1
    rw [show (stepped S h).use_drag_Minfinity = false from hdr, if_pos rfl] at h3
    cases reg
    · rw [if_neg (by simp)] at h3
      obtain rfl := Option.some.inj h3
      exact ⟨q, .inr rfl, by simp, fun _ => rfl, hq rfl⟩
    · rw [if_pos rfl] at h3
      exact ⟨d, .inl rfl, fun _ => rfl, by simp, h3⟩
  refine ⟨q', hq1, hq2, hq3, hq4, fun z => ?_⟩
  obtain ⟨u1, R, u2, h1, h2, h3, h4, h5, e1, e2, e3, -, -⟩ := output_some (output_pin hst)
  obtain ⟨Ot, Et, rfl⟩ := hin _ _ _ _ h1
  obtain ⟨Ot', Et', rfl⟩ : ∃ Ot Et, u2 = { u with Ot := Ot, Et := Et } := by
    by_cases hf : S.input_form = .fte
    · obtain ⟨R', -, h6⟩ := h4 hf
      exact hin _ _ _ _ h6
    · exact ⟨Ot, Et, h3 hf⟩
  unfold stageResistance at h2
  rw [if_neg hnp] at h2
  rw [show (stepped S h).use_drag_Minfinity = false from hdr] at h2
  have hS : Solved W S c u d q' st.out := by
    refine ⟨st.cache, R, hq4, h2, ?_⟩
    rw [← hx, ← d.2.Ns, ← d.2.Nd]
    exact h5
  have e : outAt W S c u d q' = st.out := solved_unique (Classical.epsilon_spec ⟨_, hS⟩) hS
  funext i k
  unfold velAt sphereVel
  dsimp only
  rw [e, e1, e2, e3]

end

section
variable {W : World} {S : Settings} {c : Config} {u : UserInput} {x v : Fin c.P.Ns → Vec3} {K δ R b h N : ℝ}

/-- What a frame needs to know about the motion at its start. -/
structure Calm (W : World) (S : Settings) (c : Config) (u : UserInput) (x v : Fin c.P.Ns → Vec3) (K δ : ℝ) : Prop where
  drag : S.use_drag_Minfinity = false
  same : Unchanging W c u
  extract : S.extract = false
  box : u.bl = u.tr
  any : 0 < c.P.Ns
  spheres : c.P.Nd = 0
  calm : ∀ r ≤ δ, ∀ (d q : Locs c) (z : Fin c.P.Ns → Vec3), dist (posOf d) x ≤ r → dist (posOf q) x ≤ r → dist z x ≤ r →
    Off S d.1.P ∧ ‖velAt W S c u (d, q, z) - v‖ ≤ K * r

variable (H : Calm W S c u x v K δ) (hR : R ≤ δ)
include H hR

theorem stage_near {f : ℝ} {c0 d q : Locs c} {last : NDMat} {reg : Bool} {lv : Vel} {st : Stage}
    (h0 : dist (posOf c0) x ≤ R) (hd : dist (posOf d) x ≤ R) (hq : reg = false → dist (posOf q) x ≤ R)
    (hst : generate_output_FTSUOE W (stepped S h) d.1 f last reg lv = some st)
    (hi : reg = false → (generate_Minfinity q.1.P u.mu S.bead_bead_interactions).inv = some last) :
    (∃ q' : Locs c, (reg = true → q' = d) ∧ (reg = false → q' = q) ∧
      (generate_Minfinity q'.1.P u.mu S.bead_bead_interactions).inv = some st.cache) ∧
    ‖(fun i : Fin c.P.Ns => sphereVel st i (posOf c0 i)) - v‖ ≤ K * R := by
  obtain ⟨q', a0, a1, a2, a3, a4⟩ := stage_vel H.drag H.same H.extract H.box hst hi
  refine ⟨⟨q', a1, a2, a3⟩, ?_⟩
  rw [a4 (posOf c0)]
  refine (H.calm R hR d q' (posOf c0) hd ?_ h0).2
  cases reg
  · rw [a2 rfl]; exact hq rfl
  · rw [a1 rfl]; exact hd

/-- An inner Runge-Kutta move stays near. -/
theorem move_near {bl tr : Vec3} (hb : bl = tr) {c0 : Locs c} {st : Stage} {w : Vel} {Ed : List Mat3} {dt : ℝ} {e : Bool}
    {p : Config × Bool} (hc0 : dist (posOf c0) x ≤ b) (hst : ‖(fun i : Fin c.P.Ns => sphereVel st i (posOf c0 i)) - v‖ ≤ K * R)
    (hv : ‖v‖ + K * R ≤ N) (hN : b + N * h ≤ R) (h0 : 0 ≤ dt) (hdt : dt ≤ h)
    (hw : stageVel c0.1 st Ed = some w) (hm : rk4Move (stepped S h) bl tr c0.1 st w dt e = some p) :
    ∃ d : Locs c, d.1 = p.1 ∧ dist (posOf d) x ≤ R ∧ p.2 = e := by
  have hp := move_parts (c' := p.1) (e' := p.2) hm
  have hs : SameSizes c p.1 := ⟨hp.sizes.1.trans c0.2.Ns, hp.sizes.2.1.trans c0.2.Nd, hp.sizes.2.2.1.trans c0.2.spheres,
    hp.sizes.2.2.2.trans c0.2.dumbs⟩
  have hN0 : c0.1.P.Ns = c.P.Ns := c0.2.Ns
  refine ⟨⟨p.1, hs⟩, rfl, ?_, (hp.noDumbs (by rw [c0.2.Nd, H.spheres])).2.2⟩
  have h1 := (hp.spheres (by rw [hN0]; exact H.any)).1
  rw [wrapIf_nonperiodic (by unfold isPeriodic; rw [hb]; simp)] at h1
  have e1 : posOf (⟨p.1, hs⟩ : Locs c) = posOf c0 + dt • fun i : Fin c.P.Ns => sphereVel st i (posOf c0 i) := by
    funext i k
    show p.1.P.spherePos i k = _
    rw [h1]
    unfold euler_timestep
    rw [(stageVel_spheres hw (by rw [hN0]; exact i.2)).1]
    simp [posOf]
  have e2 : ‖fun i : Fin c.P.Ns => sphereVel st i (posOf c0 i)‖ ≤ N := by
    have := norm_add_le ((fun i : Fin c.P.Ns => sphereVel st i (posOf c0 i)) - v) v
    rw [sub_add_cancel] at this
    linarith
  rw [e1, dist_eq_norm, show posOf c0 + (dt • fun i : Fin c.P.Ns => sphereVel st i (posOf c0 i)) - x
    = (posOf c0 - x) + dt • fun i : Fin c.P.Ns => sphereVel st i (posOf c0 i) by abel]
  refine (norm_add_le _ _).trans ?_
  rw [norm_smul, Real.norm_of_nonneg h0, ← dist_eq_norm]
  have e3 : dt * ‖fun i : Fin c.P.Ns => sphereVel st i (posOf c0 i)‖ ≤ h * N :=
    mul_le_mul hdt e2 (norm_nonneg _) (h0.trans hdt)
  linarith

/-- All the configurations of a frame are near, if its start is. -/
theorem visits_near {bl tr : Vec3} (hb : bl = tr) {f : ℕ} {s : State} {c0 q : Locs c} (hs : c0.1 = s.posdata)
    (hc0 : dist (posOf c0) x ≤ b) (hq : regen S f = false → dist (posOf q) x ≤ R)
    (hi : regen S f = false → (generate_Minfinity q.1.P u.mu S.bead_bead_interactions).inv = some s.cache)
    (hv : ‖v‖ + K * R ≤ N) (hN : b + N * h ≤ R) (hbR : b ≤ R) (hh : 0 ≤ h) {d : Config}
    (hd : Visits W (stepped S h) bl tr f s d) : SameSizes c d ∧ Off S d.P := by
  suffices h : ∃ e : Locs c, e.1 = d ∧ dist (posOf e) x ≤ R by
    obtain ⟨e, rfl, he⟩ := h
    exact ⟨e.2, (H.calm R hR e e (posOf e) he he he).1⟩
  have hc0R : dist (posOf c0) x ≤ R := hc0.trans hbR
  rcases visits_eq.mp hd with rfl | ⟨-, hd⟩
  · exact ⟨c0, hs, hc0R⟩
  unfold Spec.Inner at hd
  rw [← hs] at hd
  obtain ⟨st1, v1, p1, a1, b1, m1, hd⟩ := hd
  have hre : regen (stepped S h) f = regen S f := rfl
  rw [hre] at a1 hd
  have hcache : regen S f = false → cacheIn (stepped S h) f s = s.cache := fun e => by
    unfold cacheIn; rw [hre, e]; rfl
  obtain ⟨⟨q', g1, g2, g3⟩, n1⟩ := stage_near H hR (c0 := c0) (d := c0) (q := q) hc0R hc0R hq a1
    (fun e => by rw [hcache e]; exact hi e)
  have hq' : dist (posOf q') x ≤ R := by
    cases e : regen S f
    · rw [g2 e]; exact hq e
    · rw [g1 e]; exact hc0R
  obtain ⟨d1, r1, t1, -⟩ := move_near H hR hb hc0 n1 hv hN (by show 0 ≤ h / 2; linarith) (by show h / 2 ≤ h; linarith) b1 m1
  rcases hd with rfl | ⟨st2, v2, p2, a2, b2, m2, hd⟩
  · exact ⟨d1, r1, t1⟩
  rw [← r1] at a2
  obtain ⟨-, n2⟩ := stage_near H hR (c0 := c0) (q := q') hc0R t1 (fun _ => hq') a2 (fun _ => g3)
  obtain ⟨d2, r2, t2, -⟩ := move_near H hR hb hc0 n2 hv hN (by show 0 ≤ h / 2; linarith) (by show h / 2 ≤ h; linarith) b2 m2
  rcases hd with rfl | ⟨st3, v3, p3, a3, b3, m3, rfl⟩
  · exact ⟨d2, r2, t2⟩
  rw [← r2] at a3
  obtain ⟨-, n3⟩ := stage_near H hR (c0 := c0) (q := q') hc0R t2 (fun _ => hq') a3 (fun _ => g3)
  obtain ⟨d3, r3, t3, -⟩ := move_near H hR hb hc0 n3 hv hN (by show 0 ≤ h; exact hh) (by show h ≤ h; exact le_rfl) b3 m3
  exact ⟨d3, r3, t3⟩

/-- The outcome of a frame: a straight step with nearly the velocity of the motion, and a far field of the start or of
before. -/
theorem step_near {bl tr : Vec3} (hb : bl = tr) (h2d : S.fully_2d_problem = false) (hstart : S.start = 0) {f : ℕ} {s : State}
    {c0 q : Locs c} (hs : c0.1 = s.posdata)
    (hc0 : dist (posOf c0) x ≤ b) (hq : regen S f = false → dist (posOf q) x ≤ R)
    (hi : regen S f = false → (generate_Minfinity q.1.P u.mu S.bead_bead_interactions).inv = some s.cache)
    (hl : 0 < f → S.scheme = .ab2 → ‖(fun i : Fin c.P.Ns => s.lastVel.Ua i) - v‖ ≤ 2 * K * R) (hK : 0 ≤ K) (hR0 : 0 ≤ R)
    (hv : ‖v‖ + K * R ≤ N) (hN : b + N * h ≤ R) (hbR : b ≤ R) (hh : 0 ≤ h) {r : StepResult}
    (hr : frameStep W (stepped S h) bl tr f s = some r) :
    ∃ (hsz : SameSizes c r.new) (w : Fin c.P.Ns → Vec3) (q' : Locs c), r.error = false ∧
      posOf (⟨r.new, hsz⟩ : Locs c) = posOf c0 + h • w ∧ ‖w - v‖ ≤ 3 * K * R ∧
      (generate_Minfinity q'.1.P u.mu S.bead_bead_interactions).inv = some r.cache ∧
      (regen S f = true → q' = c0) ∧ (regen S f = false → q' = q) ∧
      (S.scheme = .ab2 → ‖(fun i : Fin c.P.Ns => r.lastVel.Ua i) - v‖ ≤ K * R) := by
  have hc0R : dist (posOf c0) x ≤ R := hc0.trans hbR
  have hre : regen (stepped S h) f = regen S f := rfl
  have hcache : regen S f = false → cacheIn (stepped S h) f s = s.cache := fun e => by
    unfold cacheIn; rw [hre, e]; rfl
  have hN0 : c0.1.P.Ns = c.P.Ns := c0.2.Ns
  have hNd : c0.1.P.Nd = 0 := by rw [c0.2.Nd, H.spheres]
  have hany : 0 < c0.1.P.Ns := by rw [hN0]; exact H.any
  have hnp : ¬ isPeriodic bl tr := by unfold isPeriodic; rw [hb]; simp
  unfold frameStep at hr
  rw [hre, ← hs] at hr
  have hz := timeStep_sizes hr
  have hsz : SameSizes c r.new := ⟨hz.1.trans c0.2.Ns, hz.2.1.trans c0.2.Nd, hz.2.2.1.trans c0.2.spheres,
    hz.2.2.2.trans c0.2.dumbs⟩
  rcases timeStep_cases hr with ⟨hsch, hstep⟩ | ⟨hsch, hstep⟩
  · obtain ⟨st, v0, w, hp⟩ := euler_parts hstep
    obtain ⟨⟨q', g1, g2, g3⟩, n1⟩ := stage_near H hR (c0 := c0) (d := c0) (q := q) hc0R hc0R hq hp.stage
      (fun e => by rw [hcache e]; exact hi e)
    have hw : w = v0 := by
      have := hp.flat
      rw [show (stepped S h).fully_2d_problem = false from h2d] at this
      simpa using this
    subst hw
    have hU : (fun i : Fin c.P.Ns => w.Ua i) = fun i : Fin c.P.Ns => sphereVel st i (posOf c0 i) := by
      funext i
      exact (stageVel_spheres hp.vel (by rw [hN0]; exact i.2)).1
    obtain ⟨new, rots, e1, -, e2, -⟩ := hp.spheres hany
    rw [wrapIf_nonperiodic hnp] at e2
    have herr := (hp.noDumbs hNd).2.2
    have hvel : (fun i : Fin c.P.Ns => r.lastVel.Ua i) = fun i : Fin c.P.Ns => sphereVel st i (posOf c0 i) := by
      rw [hp.vel_eq]; exact hU
    have hcc : (generate_Minfinity q'.1.P u.mu S.bead_bead_interactions).inv = some r.cache := by rw [hp.cache_eq]; exact g3
    by_cases hE : (stepped S h).scheme = .euler ∨ f - (stepped S h).start = 0
    · refine ⟨hsz, fun i : Fin c.P.Ns => sphereVel st i (posOf c0 i), q', herr, ?_, ?_, hcc, g1, g2,
        fun _ => by rw [hvel]; exact n1⟩
      · rw [if_pos hE] at e1
        funext i k
        show r.new.P.spherePos i k = _
        rw [e2, e1]
        have := congrFun (congrFun hU i) k
        simp only [euler_timestep, this]
        simp [posOf, stepped]
      · refine n1.trans ?_
        nlinarith [mul_nonneg hK hR0]
    · have hab : S.scheme = .ab2 := by
        rcases hsch with h | h
        · exact absurd (.inl h) hE
        · exact h
      have hf : 0 < f := by
        by_contra h0
        exact hE (.inr (by omega))
      have hlv : velIn (stepped S h) f s = s.lastVel := by
        unfold velIn
        rw [if_neg (by rw [show (stepped S h).start = 0 from hstart]; omega)]
      have n2 := hl hf hab
      refine ⟨hsz, fun i : Fin c.P.Ns => (3 / 2 : ℝ) • sphereVel st i (posOf c0 i) - (1 / 2 : ℝ) • s.lastVel.Ua i, q', herr,
        ?_, ?_, hcc, g1, g2, fun _ => by rw [hvel]; exact n1⟩
      · rw [if_neg hE, hlv] at e1
        funext i k
        show r.new.P.spherePos i k = _
        rw [e2, e1]
        have := congrFun (congrFun hU i) k
        simp only [ab2_timestep, this]
        simp only [posOf, stepped, Pi.add_apply, Pi.smul_apply, Pi.sub_apply, smul_eq_mul]
        ring
      · have e : (fun i : Fin c.P.Ns => (3 / 2 : ℝ) • sphereVel st i (posOf c0 i) - (1 / 2 : ℝ) • s.lastVel.Ua i) - v
            = (3 / 2 : ℝ) • ((fun i : Fin c.P.Ns => sphereVel st i (posOf c0 i)) - v)
              - (1 / 2 : ℝ) • ((fun i : Fin c.P.Ns => s.lastVel.Ua i) - v) := by
          funext i k
          simp
          ring
        rw [e]
        refine (norm_sub_le _ _).trans ?_
        rw [norm_smul, norm_smul, Real.norm_of_nonneg (by norm_num : (0 : ℝ) ≤ 3 / 2),
          Real.norm_of_nonneg (by norm_num : (0 : ℝ) ≤ 1 / 2)]
        nlinarith [mul_nonneg hK hR0]
  · obtain ⟨st, w, c1, c2, c3, e1, e2, e3, hp⟩ := rk4_parts hstep
    obtain ⟨⟨q', g1, g2, g3⟩, n1⟩ := stage_near H hR (c0 := c0) (d := c0) (q := q) hc0R hc0R hq hp.stage1
      (fun e => by rw [hcache e]; exact hi e)
    have hq' : dist (posOf q') x ≤ R := by
      cases e : regen S f
      · rw [g2 e]; exact hq e
      · rw [g1 e]; exact hc0R
    obtain ⟨d1, r1, t1, s1⟩ := move_near H hR hb hc0 n1 hv hN (by show 0 ≤ h / 2; linarith) (by show h / 2 ≤ h; linarith)
      hp.vel1 hp.move1
    have a2 := hp.stage2
    rw [show c1 = d1.1 from r1.symm] at a2
    obtain ⟨-, n2⟩ := stage_near H hR (c0 := c0) (q := q') hc0R t1 (fun _ => hq') a2 (fun _ => g3)
    obtain ⟨d2, r2, t2, s2⟩ := move_near H hR hb hc0 n2 hv hN (by show 0 ≤ h / 2; linarith) (by show h / 2 ≤ h; linarith)
      hp.vel2 hp.move2
    have a3 := hp.stage3
    rw [show c2 = d2.1 from r2.symm] at a3
    obtain ⟨-, n3⟩ := stage_near H hR (c0 := c0) (q := q') hc0R t2 (fun _ => hq') a3 (fun _ => g3)
    obtain ⟨d3, r3, t3, s3⟩ := move_near H hR hb hc0 n3 hv hN (by show 0 ≤ h; exact hh) (by show h ≤ h; exact le_rfl)
      hp.vel3 hp.move3
    have a4 := hp.stage4
    rw [show c3 = d3.1 from r3.symm] at a4
    obtain ⟨-, n4⟩ := stage_near H hR (c0 := c0) (q := q') hc0R t3 (fun _ => hq') a4 (fun _ => g3)
    refine ⟨hsz, fun i : Fin c.P.Ns => (1 / 6 : ℝ) • (sphereVel (st 0) i (posOf c0 i) + (2 : ℝ) • sphereVel (st 1) i (posOf c0 i)
        + (2 : ℝ) • sphereVel (st 2) i (posOf c0 i) + sphereVel (st 3) i (posOf c0 i)), q', ?_, ?_, ?_, by
        rw [hp.cache_eq]; exact g3, g1, g2, fun h => by rw [show S.scheme = .rk4 from hsch] at h; cases h⟩
    · exact ((hp.noDumbs hNd).2.2.trans s3).trans (s2.trans s1)
    · have m4 := (hp.spheres hany).1
      rw [wrapIf_nonperiodic hnp] at m4
      funext i k
      have hi' : (i : ℕ) < c0.1.P.Ns := by rw [hN0]; exact i.2
      show r.new.P.spherePos i k = _
      rw [m4, hp.vel_eq, show (stepped S h).fully_2d_problem = false from h2d]
      simp only [euler_timestep, Bool.false_eq_true, if_false, blend]
      rw [(stageVel_spheres hp.vel1 hi').1, (stageVel_spheres hp.vel2 hi').1, (stageVel_spheres hp.vel3 hi').1,
        (stageVel_spheres hp.vel4 hi').1]
      simp only [posOf, stepped, Pi.add_apply, Pi.smul_apply, smul_eq_mul]
    · have e : (fun i : Fin c.P.Ns => (1 / 6 : ℝ) • (sphereVel (st 0) i (posOf c0 i) + (2 : ℝ) • sphereVel (st 1) i (posOf c0 i)
            + (2 : ℝ) • sphereVel (st 2) i (posOf c0 i) + sphereVel (st 3) i (posOf c0 i))) - v
          = (1 / 6 : ℝ) • (((fun i : Fin c.P.Ns => sphereVel (st 0) i (posOf c0 i)) - v)
            + (2 : ℝ) • ((fun i : Fin c.P.Ns => sphereVel (st 1) i (posOf c0 i)) - v)
            + (2 : ℝ) • ((fun i : Fin c.P.Ns => sphereVel (st 2) i (posOf c0 i)) - v)
            + ((fun i : Fin c.P.Ns => sphereVel (st 3) i (posOf c0 i)) - v)) := by
        funext i k
        simp
        ring
      rw [e, norm_smul, Real.norm_of_nonneg (by norm_num : (0 : ℝ) ≤ 1 / 6)]
      have t := norm_add₃_le (a := ((fun i : Fin c.P.Ns => sphereVel (st 0) i (posOf c0 i)) - v)
            + (2 : ℝ) • ((fun i : Fin c.P.Ns => sphereVel (st 1) i (posOf c0 i)) - v))
            (b := (2 : ℝ) • ((fun i : Fin c.P.Ns => sphereVel (st 2) i (posOf c0 i)) - v))
            (c := ((fun i : Fin c.P.Ns => sphereVel (st 3) i (posOf c0 i)) - v))
      have t' := norm_add_le ((fun i : Fin c.P.Ns => sphereVel (st 0) i (posOf c0 i)) - v)
            ((2 : ℝ) • ((fun i : Fin c.P.Ns => sphereVel (st 1) i (posOf c0 i)) - v))
      rw [norm_smul, Real.norm_of_nonneg (by norm_num : (0 : ℝ) ≤ 2)] at t t'
      nlinarith [mul_nonneg hK hR0]

end

end SD.Lip
