import Verif.Lemmas.ConvergeAll

/-!
# Runs from nearby starts
-/

set_option autoImplicit false

namespace SD.Lip

open Spec Filter Topology Set Move

section
variable {W : World} {S : Settings} {c : Config} {u : UserInput} {L : NDMat → Prop}

/-- The velocities of a stage. -/
noncomputable def velOf (st : Stage) (z : Fin c.P.Ns → Vec3) : Fin c.P.Ns → Vec3 := fun i => sphereVel st i (z i)

theorem pair_stage (H : Course W S c u L) (hx : S.extract = false) {f : ℝ} {c0b db qb : Locs c} {lastb : NDMat} {reg : Bool}
    {lvb : Vel} {stb : Stage} (hd : Off S db.1.P) (hq : reg = false → Loose qb.1.P)
    (hst : generate_output_FTSUOE W S db.1 f lastb reg lvb = some stb)
    (hi : reg = false → (generate_Minfinity qb.1.P u.mu S.bead_bead_interactions).inv = some lastb) :
    ∃ q'b : Locs c, (generate_Minfinity q'b.1.P u.mu S.bead_bead_interactions).inv = some stb.cache ∧ Loose q'b.1.P ∧
      ∃ K ≥ 0, ∃ δ > 0, ∀ r ≤ δ, ∀ d : Locs c, dist d db ≤ r → ¬ Touching d.1.P ∧ ∀ c0 q : Locs c, dist c0 c0b ≤ r →
        (reg = false → dist q qb ≤ r) → ∀ (f : ℝ) (last : NDMat) (lv : Vel) (st : Stage),
        generate_output_FTSUOE W S d.1 f last reg lv = some st →
        (reg = false → (generate_Minfinity q.1.P u.mu S.bead_bead_interactions).inv = some last) →
        (∀ r', (reg = false → dist q qb ≤ r') → dist d db ≤ r' → ∃ q' : Locs c,
          (generate_Minfinity q'.1.P u.mu S.bead_bead_interactions).inv = some st.cache ∧ dist q' q'b ≤ r') ∧
        ‖velOf st (posOf c0) - velOf stb (posOf c0b)‖ ≤ K * r := by
  have hnt : ¬ Touching db.1.P := (clear_eventually H.spheres hd.1).self_of_nhds
  have hub := (H.input db.2 hnt).2.2.2
  obtain ⟨q'b, -, k1, k2, k3, k4⟩ := stage_vel H.drag H.same hx hub (h := S.timestep) hst hi
  have hl : Loose q'b.1.P := by
    cases reg
    · rw [k2 rfl]; exact hq rfl
    · rw [k1 rfl]; exact hd.1
  refine ⟨q'b, k3, hl, ?_⟩
  obtain ⟨K, s, hs, hK⟩ := H.vel_ll2 hd.1 hl hd.2 (posOf c0b)
  obtain ⟨e1, he1, hb1⟩ := Metric.mem_nhds_iff.mp hs
  obtain ⟨e2, he2, hb2⟩ := Metric.mem_nhds_iff.mp (clear_eventually H.spheres hd.1)
  refine ⟨K, K.2, min e1 e2 / 2, by positivity, fun r hr d hdd => ⟨hb2 ?_, fun c0 q hc0 hqq f last lv st hst' hi' => ?_⟩⟩
  · rw [Metric.mem_ball]
    linarith [min_le_right e1 e2, lt_min he1 he2]
  obtain ⟨q', -, j1, j2, j3, j4⟩ := stage_vel H.drag H.same hx hub (h := S.timestep) hst' hi'
  have near : ∀ r', (reg = false → dist q qb ≤ r') → dist d db ≤ r' → dist q' q'b ≤ r' := by
    intro r' a b
    cases reg
    · rw [j2 rfl, k2 rfl]; exact a rfl
    · rw [j1 rfl, k1 rfl]; exact b
  refine ⟨fun r' a b => ⟨q', j3, near r' a b⟩, ?_⟩
  show ‖(fun i : Fin c.P.Ns => sphereVel st i (posOf c0 i)) - (fun i : Fin c.P.Ns => sphereVel stb i (posOf c0b i))‖ ≤ K * r
  rw [j4 (posOf c0), k4 (posOf c0b), ← dist_eq_norm]
  have m1 : dist (d, q', posOf c0) (db, q'b, posOf c0b) ≤ r := by
    rw [Prod.dist_eq, Prod.dist_eq]
    exact max_le hdd (max_le (near r hqq hdd) hc0)
  refine (hK.dist_le_mul _ (hb1 ?_) _ (mem_of_mem_nhds hs)).trans (mul_le_mul_of_nonneg_left m1 K.2)
  rw [Metric.mem_ball]
  linarith [min_le_left e1 e2, lt_min he1 he2]

/-- Where an inner Runge-Kutta move leads. -/
theorem move_pos (hNd : c.P.Nd = 0) (hNs : 0 < c.P.Ns) {bl tr : Vec3} (hb : bl = tr) {c0 : Locs c} {st : Stage} {w : Vel}
    {Ed : List Mat3} {dt : ℝ} {e : Bool} {p : Config × Bool}
    (hw : stageVel c0.1 st Ed = some w) (hm : rk4Move S bl tr c0.1 st w dt e = some p) :
    ∃ d : Locs c, d.1 = p.1 ∧ posOf d = posOf c0 + dt • velOf st (posOf c0) ∧ p.2 = e := by
  have hp := move_parts (c' := p.1) (e' := p.2) hm
  have hs : SameSizes c p.1 := ⟨hp.sizes.1.trans c0.2.Ns, hp.sizes.2.1.trans c0.2.Nd, hp.sizes.2.2.1.trans c0.2.spheres,
    hp.sizes.2.2.2.trans c0.2.dumbs⟩
  have hN0 : c0.1.P.Ns = c.P.Ns := c0.2.Ns
  refine ⟨⟨p.1, hs⟩, rfl, ?_, (hp.noDumbs (by rw [c0.2.Nd, hNd])).2.2⟩
  have h1 := (hp.spheres (by rw [hN0]; exact hNs)).1
  rw [wrapIf_nonperiodic (by unfold isPeriodic; rw [hb]; simp)] at h1
  funext i k
  show p.1.P.spherePos i k = _
  rw [h1]
  unfold euler_timestep
  rw [(stageVel_spheres hw (by rw [hN0]; exact i.2)).1]
  simp [posOf, velOf]

theorem pair_move (hNd : c.P.Nd = 0) (hNs : 0 < c.P.Ns) {bl tr : Vec3} (hb : bl = tr) {c0 c0b d1b : Locs c} {st stb : Stage}
    {w : Vel} {Ed : List Mat3} {dt : ℝ} {e : Bool} {p : Config × Bool} {r κ : ℝ}
    (hw : stageVel c0.1 st Ed = some w) (hm : rk4Move S bl tr c0.1 st w dt e = some p)
    (hbase : posOf d1b = posOf c0b + dt • velOf stb (posOf c0b)) (h0 : dist c0 c0b ≤ r)
    (hv : ‖velOf st (posOf c0) - velOf stb (posOf c0b)‖ ≤ κ) :
    ∃ d : Locs c, d.1 = p.1 ∧ dist d d1b ≤ r + |dt| * κ ∧ p.2 = e := by
  obtain ⟨d, h1, h2, h3⟩ := move_pos (c := c) hNd hNs hb hw hm
  refine ⟨d, h1, ?_, h3⟩
  rw [locs_dist, h2, hbase, dist_eq_norm, show posOf c0 + dt • velOf st (posOf c0) - (posOf c0b + dt • velOf stb (posOf c0b))
    = (posOf c0 - posOf c0b) + dt • (velOf st (posOf c0) - velOf stb (posOf c0b)) by rw [smul_sub]; abel]
  refine (norm_add_le _ _).trans ?_
  rw [norm_smul, Real.norm_eq_abs, ← dist_eq_norm]
  have := mul_le_mul_of_nonneg_left hv (abs_nonneg dt)
  rw [locs_dist] at h0
  linarith

end

end SD.Lip
