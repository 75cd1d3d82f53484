import Verif.Lemmas.RenumStage
import Verif.Props.Resume

/-!
# Steps, runs and programs of reordered particles
-/

set_option autoImplicit false

namespace SD.Reorder

open Spec Cov Move

section
variable {σ τ : ℕ → ℕ} {W W' : World} {S : Settings} {K : NDMat → Prop}

/-- What a step with reordered particles gives. -/
structure ReorderedStep (σ τ : ℕ → ℕ) (K : NDMat → Prop) (Ns Nd : ℕ) (r r' : StepResult) : Prop where
  new : r'.new = reorderConfig σ τ r.new
  error : r'.error = r.error
  lastVel : r'.lastVel = reorderVel σ τ r.lastVel
  forces : r'.forces = reorderForces σ τ r.forces
  cache : CacheReordered Ns Nd σ τ K r.cache r'.cache

theorem flat_reordered (v : Vel) :
    (if S.fully_2d_problem = true then { reorderVel σ τ v with Ua := zeroY (reorderVel σ τ v).Ua } else reorderVel σ τ v)
      = reorderVel σ τ (if S.fully_2d_problem = true then { v with Ua := zeroY v.Ua } else v) := by
  by_cases h : S.fully_2d_problem = true
  · rw [if_pos h, if_pos h]; rfl
  · rw [if_neg h, if_neg h]

theorem euler_reordered {c : Config} (hσ : Reorders c.P.Ns σ) (hτ : Reorders c.P.Nd τ)
    (hW : ReorderedWorld S.input_form c.P.Ns c.P.Nd σ τ W W') (hk : 0 < S.cutoff_factor)
    (hc : ∀ c f dt v r u, W.input_ftsuoe c f dt v r = some u → Orderly W S K c)
    {bl tr bl' tr' : Vec3} (hb : bl = tr) (hb' : bl' = tr')
    {f : ℕ} {lv : Vel} {last last' : NDMat} {reg : Bool} {r : StepResult}
    (hl : S.use_drag_Minfinity = false → reg = false → CacheReordered c.P.Ns c.P.Nd σ τ K last last')
    (h : stepEulerAb2 W S bl tr f c lv last reg = some r) :
    ∃ r', stepEulerAb2 W' S bl' tr' f (reorderConfig σ τ c) (reorderVel σ τ lv) last' reg = some r' ∧
      ReorderedStep σ τ K c.P.Ns c.P.Nd r r' := by
  unfold stepEulerAb2 at h
  obtain ⟨st, h1, h⟩ := Option.bind_eq_some_iff.mp h
  obtain ⟨v0, h2, h⟩ := Option.bind_eq_some_iff.mp h
  obtain ⟨u, -, -, hu, -⟩ := output_some h1
  obtain ⟨st', k1, k2⟩ := stage_reordered hσ hτ hW rfl rfl hk (hc _ _ _ _ _ _ hu) hl h1
  have k4 := vel_reordered hσ hτ k2 st.out.Ea k2.first
  rw [h2, Option.map_some, ← strains_reordered k2] at k4
  unfold stepEulerAb2
  rw [k1, Option.bind_eq_bind, Option.bind_some, k4, Option.bind_eq_bind, Option.bind_some]
  dsimp only at h ⊢
  rw [flat_reordered]
  generalize (if S.fully_2d_problem = true then { v0 with Ua := zeroY v0.Ua } else v0) = v at h ⊢
  simp only [wrapIf_same hb, wrapIf_same hb'] at h ⊢
  obtain ⟨sp, h3, h⟩ := Option.bind_eq_some_iff.mp h
  obtain ⟨db, h4, h⟩ := Option.bind_eq_some_iff.mp h
  obtain rfl := Option.some.inj h
  have hs : (if 0 < (reorderConfig σ τ c).P.Ns then do
        let rots ←
          (if S.scheme = .euler ∨ f - S.start = 0 then
            euler_timestep_rotation (reorderConfig σ τ c).P.Ns (reorderConfig σ τ c).P.spherePos (reorderConfig σ τ c).rots
              (if S.scheme = .euler ∨ f - S.start = 0 then
                euler_timestep (reorderConfig σ τ c).P.spherePos (reorderVel σ τ v).Ua S.timestep
              else ab2_timestep (reorderConfig σ τ c).P.spherePos (reorderVel σ τ v).Ua (reorderVel σ τ lv).Ua S.timestep)
              (reorderVel σ τ v).Oa S.timestep
          else ab2_timestep_rotation (reorderConfig σ τ c).P.Ns (reorderConfig σ τ c).P.spherePos (reorderConfig σ τ c).rots
              (if S.scheme = .euler ∨ f - S.start = 0 then
                euler_timestep (reorderConfig σ τ c).P.spherePos (reorderVel σ τ v).Ua S.timestep
              else ab2_timestep (reorderConfig σ τ c).P.spherePos (reorderVel σ τ v).Ua (reorderVel σ τ lv).Ua S.timestep)
              (reorderVel σ τ v).Oa (reorderVel σ τ lv).Oa S.timestep : Option Rots)
        let new ← some
              (if S.scheme = .euler ∨ f - S.start = 0 then
                euler_timestep (reorderConfig σ τ c).P.spherePos (reorderVel σ τ v).Ua S.timestep
              else ab2_timestep (reorderConfig σ τ c).P.spherePos (reorderVel σ τ v).Ua (reorderVel σ τ lv).Ua S.timestep)
        some (new, rots)
      else some ((reorderConfig σ τ c).P.spherePos, (reorderConfig σ τ c).rots) : Option ((ℕ → Vec3) × Rots))
      = some (fun i => sp.1 (σ i), fun i => sp.2 (σ i)) := by
    by_cases hp : 0 < c.P.Ns
    · rw [if_pos hp] at h3
      obtain ⟨rots, g1, g2⟩ := Option.bind_eq_some_iff.mp h3
      obtain rfl := Option.some.inj g2
      rw [if_pos (show 0 < (reorderConfig σ τ c).P.Ns from hp)]
      by_cases he : S.scheme = .euler ∨ f - S.start = 0
      · simp only [if_pos he] at g1 ⊢
        have e := rotation_reorder hσ c.P.spherePos (euler_timestep c.P.spherePos v.Ua S.timestep) v.Oa c.rots S.timestep
        rw [g1] at e
        refine Option.bind_eq_some_iff.mpr ⟨_, e, rfl⟩
      · simp only [if_neg he] at g1 ⊢
        have e := rotation_reorder hσ c.P.spherePos (ab2_timestep c.P.spherePos v.Ua lv.Ua S.timestep)
          (fun i k => 1.5 * v.Oa i k - 0.5 * lv.Oa i k) c.rots S.timestep
        unfold ab2_timestep_rotation at g1
        rw [g1] at e
        refine Option.bind_eq_some_iff.mpr ⟨_, e, rfl⟩
    · rw [if_neg hp] at h3
      rw [if_neg (show ¬ 0 < (reorderConfig σ τ c).P.Ns from hp), ← Option.some.inj h3]
      rfl
  have hd : (if 0 < (reorderConfig σ τ c).P.Nd then
        if S.scheme = .euler then do
          let new ← some (euler_timestep (reorderConfig σ τ c).P.dumbPos (reorderVel σ τ v).Ub S.timestep)
          some (new, euler_timestep (reorderConfig σ τ c).P.dumbDx (fun i k => 2 * (reorderVel σ τ v).HalfDUb i k) S.timestep,
            did_something_go_wrong_with_dumbells false (reorderConfig σ τ c).P.Nd
              (euler_timestep (reorderConfig σ τ c).P.dumbDx (fun i k => 2 * (reorderVel σ τ v).HalfDUb i k) S.timestep)
              S.explosion_protection)
        else none
      else some ((reorderConfig σ τ c).P.dumbPos, (reorderConfig σ τ c).P.dumbDx, false)
        : Option ((ℕ → Vec3) × (ℕ → Vec3) × Bool))
      = some (fun i => db.1 (τ i), fun i => db.2.1 (τ i), db.2.2) := by
    by_cases hp : 0 < c.P.Nd
    · rw [if_pos hp] at h4
      rw [if_pos (show 0 < (reorderConfig σ τ c).P.Nd from hp)]
      by_cases he : S.scheme = .euler
      · rw [if_pos he] at h4 ⊢
        obtain rfl := Option.some.inj h4
        have e := wrong_reorder hτ false (euler_timestep c.P.dumbDx (fun i k => 2 * v.HalfDUb i k) S.timestep)
          S.explosion_protection
        refine congrArg some (Prod.ext rfl (Prod.ext rfl e))
      · rw [if_neg he] at h4
        exact absurd h4 (by simp)
    · rw [if_neg hp] at h4
      rw [if_neg (show ¬ 0 < (reorderConfig σ τ c).P.Nd from hp), ← Option.some.inj h4]
      rfl
  erw [hs]
  rw [Option.bind_eq_bind, Option.bind_some]
  erw [hd]
  exact ⟨_, rfl, rfl, rfl, rfl, forces_reordered k2, k2.cache⟩

theorem move_reordered {c c1 : Config} (hσ : Reorders c.P.Ns σ) (hτ : Reorders c.P.Nd τ) {bl tr bl' tr' : Vec3}
    (hb : bl = tr) (hb' : bl' = tr') {st st' : Stage} {v : Vel} {dt : ℝ} {e e1 : Bool}
    (h : rk4Move S bl tr c st v dt e = some (c1, e1)) :
    rk4Move S bl' tr' (reorderConfig σ τ c) st' (reorderVel σ τ v) dt e = some (reorderConfig σ τ c1, e1) := by
  unfold rk4Move at h ⊢
  simp only [wrapIf_same hb, wrapIf_same hb'] at h ⊢
  obtain ⟨sp, h3, h⟩ := Option.bind_eq_some_iff.mp h
  obtain ⟨db, h4, h⟩ := Option.bind_eq_some_iff.mp h
  obtain ⟨rfl, rfl⟩ := Prod.mk.inj (Option.some.inj h)
  have hs : (if 0 < (reorderConfig σ τ c).P.Ns then do
        let rots ← euler_timestep_rotation (reorderConfig σ τ c).P.Ns (reorderConfig σ τ c).P.spherePos
              (reorderConfig σ τ c).rots (euler_timestep (reorderConfig σ τ c).P.spherePos (reorderVel σ τ v).Ua dt)
              (reorderVel σ τ v).Oa dt
        let new ← some (euler_timestep (reorderConfig σ τ c).P.spherePos (reorderVel σ τ v).Ua dt)
        some (new, rots)
      else some ((reorderConfig σ τ c).P.spherePos, (reorderConfig σ τ c).rots) : Option ((ℕ → Vec3) × Rots))
      = some (fun i => sp.1 (σ i), fun i => sp.2 (σ i)) := by
    by_cases hp : 0 < c.P.Ns
    · rw [if_pos hp] at h3
      obtain ⟨rots, g1, g2⟩ := Option.bind_eq_some_iff.mp h3
      obtain rfl := Option.some.inj g2
      rw [if_pos (show 0 < (reorderConfig σ τ c).P.Ns from hp)]
      have e := rotation_reorder hσ c.P.spherePos (euler_timestep c.P.spherePos v.Ua dt) v.Oa c.rots dt
      rw [g1] at e
      exact Option.bind_eq_some_iff.mpr ⟨_, e, rfl⟩
    · rw [if_neg hp] at h3
      rw [if_neg (show ¬ 0 < (reorderConfig σ τ c).P.Ns from hp), ← Option.some.inj h3]
      rfl
  have hd : (if 0 < (reorderConfig σ τ c).P.Nd then do
          let new ← some (euler_timestep (reorderConfig σ τ c).P.dumbPos (reorderVel σ τ v).Ub dt)
          some (new, euler_timestep (reorderConfig σ τ c).P.dumbDx (fun i k => 2 * (reorderVel σ τ v).HalfDUb i k) dt,
            did_something_go_wrong_with_dumbells e (reorderConfig σ τ c).P.Nd
              (euler_timestep (reorderConfig σ τ c).P.dumbDx (fun i k => 2 * (reorderVel σ τ v).HalfDUb i k) dt)
              S.explosion_protection)
      else some ((reorderConfig σ τ c).P.dumbPos, (reorderConfig σ τ c).P.dumbDx, e)
        : Option ((ℕ → Vec3) × (ℕ → Vec3) × Bool))
      = some (fun i => db.1 (τ i), fun i => db.2.1 (τ i), db.2.2) := by
    by_cases hp : 0 < c.P.Nd
    · rw [if_pos hp] at h4
      rw [if_pos (show 0 < (reorderConfig σ τ c).P.Nd from hp)]
      obtain rfl := Option.some.inj h4
      have e := wrong_reorder hτ e (euler_timestep c.P.dumbDx (fun i k => 2 * v.HalfDUb i k) dt)
          S.explosion_protection
      refine congrArg some (Prod.ext rfl (Prod.ext rfl e))
    · rw [if_neg hp] at h4
      rw [if_neg (show ¬ 0 < (reorderConfig σ τ c).P.Nd from hp), ← Option.some.inj h4]
      rfl
  erw [hs]
  rw [Option.bind_eq_bind, Option.bind_some]
  erw [hd]
  rfl

theorem end_reordered {c : Config} (hσ : Reorders c.P.Ns σ) (hτ : Reorders c.P.Nd τ) {bl tr bl' tr' : Vec3}
    (hb : bl = tr) (hb' : bl' = tr') {s1 s2 s3 s4 s1' s2' s3' s4' : Stage} {v1 v2 v3 v4 : Vel} {e3 : Bool}
    {r : StepResult} (g1 : ReorderedStage σ τ K c.P.Ns c.P.Nd s1 s1') (g2 : ReorderedStage σ τ K c.P.Ns c.P.Nd s2 s2')
    (g3 : ReorderedStage σ τ K c.P.Ns c.P.Nd s3 s3') (g4 : ReorderedStage σ τ K c.P.Ns c.P.Nd s4 s4')
    (h : rk4End S bl tr c s1 s2 s3 s4 v1 v2 v3 v4 e3 = some r) :
    ∃ r', rk4End S bl' tr' (reorderConfig σ τ c) s1' s2' s3' s4' (reorderVel σ τ v1) (reorderVel σ τ v2)
        (reorderVel σ τ v3) (reorderVel σ τ v4) e3 = some r' ∧ ReorderedStep σ τ K c.P.Ns c.P.Nd r r' := by
  have f1 := forces_reordered g1
  have f2 := forces_reordered g2
  have f3 := forces_reordered g3
  have f4 := forces_reordered g4
  simp only [Outputs.forces, reorderForces, Forces.mk.injEq] at f1 f2 f3 f4
  have eU : blend (reorderVel σ τ v1).Ua (reorderVel σ τ v2).Ua (reorderVel σ τ v3).Ua (reorderVel σ τ v4).Ua
      = fun i => blend v1.Ua v2.Ua v3.Ua v4.Ua (σ i) := rfl
  have eB : blend (reorderVel σ τ v1).Ub (reorderVel σ τ v2).Ub (reorderVel σ τ v3).Ub (reorderVel σ τ v4).Ub
      = fun i => blend v1.Ub v2.Ub v3.Ub v4.Ub (τ i) := rfl
  have eD : blend (reorderVel σ τ v1).HalfDUb (reorderVel σ τ v2).HalfDUb (reorderVel σ τ v3).HalfDUb
      (reorderVel σ τ v4).HalfDUb = fun i => blend v1.HalfDUb v2.HalfDUb v3.HalfDUb v4.HalfDUb (τ i) := rfl
  have eO : blend (reorderVel σ τ v1).Oa (reorderVel σ τ v2).Oa (reorderVel σ τ v3).Oa (reorderVel σ τ v4).Oa
      = fun i => blend v1.Oa v2.Oa v3.Oa v4.Oa (σ i) := rfl
  unfold rk4End at h ⊢
  rw [eU, eB, eD, eO, f1.1, f1.2.1, f1.2.2.1, f1.2.2.2, f2.1, f2.2.1, f2.2.2.1, f2.2.2.2, f3.1, f3.2.1, f3.2.2.1,
    f3.2.2.2, f4.1, f4.2.1, f4.2.2.1, f4.2.2.2, blendRows_reorder hσ g1.Fa g2.Fa g3.Fa g4.Fa,
    blendRows_reorder hτ g1.Fb g2.Fb g3.Fb g4.Fb, blendRows_reorder hτ g1.DFb g2.DFb g3.DFb g4.DFb,
    blendMats_reorder hσ g1.Sa g2.Sa g3.Sa g4.Sa]
  have e2 : ∀ u : ℕ → Vec3, (if S.fully_2d_problem = true then zeroY fun i => u (σ i) else fun i => u (σ i))
      = fun i => (if S.fully_2d_problem = true then zeroY u else u) (σ i) := by
    intro u
    by_cases h : S.fully_2d_problem = true
    · rw [if_pos h, if_pos h]; rfl
    · rw [if_neg h, if_neg h]
  generalize blend v1.Ua v2.Ua v3.Ua v4.Ua = Ua0 at *
  generalize blend v1.Ub v2.Ub v3.Ub v4.Ub = Ub at *
  generalize blend v1.Oa v2.Oa v3.Oa v4.Oa = Oa at *
  generalize blend v1.HalfDUb v2.HalfDUb v3.HalfDUb v4.HalfDUb = Db at *
  dsimp only at h ⊢
  rw [e2]
  generalize (if S.fully_2d_problem = true then zeroY Ua0 else Ua0) = Ua at *
  rw [wrapIf_same hb, wrapIf_same hb] at h
  rw [wrapIf_same hb', wrapIf_same hb']
  obtain ⟨sp, h3, h⟩ := Option.bind_eq_some_iff.mp h
  obtain ⟨db, h4, h⟩ := Option.bind_eq_some_iff.mp h
  obtain rfl := Option.some.inj h
  have hs : (if 0 < (reorderConfig σ τ c).P.Ns then do
        let new ← some (euler_timestep (reorderConfig σ τ c).P.spherePos (fun i => Ua (σ i)) S.timestep)
        let rots ← euler_timestep_rotation (reorderConfig σ τ c).P.Ns (reorderConfig σ τ c).P.spherePos
              (reorderConfig σ τ c).rots new (fun i => Oa (σ i)) S.timestep
        some (new, rots)
      else some ((reorderConfig σ τ c).P.spherePos, (reorderConfig σ τ c).rots) : Option ((ℕ → Vec3) × Rots))
      = some (fun i => sp.1 (σ i), fun i => sp.2 (σ i)) := by
    by_cases hp : 0 < c.P.Ns
    · rw [if_pos hp] at h3
      rw [Option.bind_eq_bind, Option.bind_some] at h3
      obtain ⟨rots, g1, g2⟩ := Option.bind_eq_some_iff.mp h3
      obtain rfl := Option.some.inj g2
      rw [if_pos (show 0 < (reorderConfig σ τ c).P.Ns from hp)]
      rw [Option.bind_eq_bind, Option.bind_some]
      have e := rotation_reorder hσ c.P.spherePos (euler_timestep c.P.spherePos Ua S.timestep) Oa c.rots S.timestep
      rw [g1] at e
      exact Option.bind_eq_some_iff.mpr ⟨_, e, rfl⟩
    · rw [if_neg hp] at h3
      rw [if_neg (show ¬ 0 < (reorderConfig σ τ c).P.Ns from hp), ← Option.some.inj h3]
      rfl
  have hd : (if 0 < (reorderConfig σ τ c).P.Nd then do
          let new ← some (euler_timestep (reorderConfig σ τ c).P.dumbPos (fun i => Ub (τ i)) S.timestep)
          some (new, euler_timestep (reorderConfig σ τ c).P.dumbDx (fun i k => 2 * Db (τ i) k) S.timestep,
            did_something_go_wrong_with_dumbells e3 (reorderConfig σ τ c).P.Nd
              (euler_timestep (reorderConfig σ τ c).P.dumbDx (fun i k => 2 * Db (τ i) k) S.timestep)
              S.explosion_protection)
      else some ((reorderConfig σ τ c).P.dumbPos, (reorderConfig σ τ c).P.dumbDx, e3)
        : Option ((ℕ → Vec3) × (ℕ → Vec3) × Bool))
      = some (fun i => db.1 (τ i), fun i => db.2.1 (τ i), db.2.2) := by
    by_cases hp : 0 < c.P.Nd
    · rw [if_pos hp] at h4
      rw [if_pos (show 0 < (reorderConfig σ τ c).P.Nd from hp)]
      obtain rfl := Option.some.inj h4
      have e := wrong_reorder hτ e3 (euler_timestep c.P.dumbDx (fun i k => 2 * Db i k) S.timestep)
          S.explosion_protection
      refine congrArg some (Prod.ext rfl (Prod.ext rfl e))
    · rw [if_neg hp] at h4
      rw [if_neg (show ¬ 0 < (reorderConfig σ τ c).P.Nd from hp), ← Option.some.inj h4]
      rfl
  erw [hs]
  rw [Option.bind_eq_bind, Option.bind_some]
  erw [hd]
  exact ⟨_, rfl, rfl, rfl, rfl, rfl, g1.cache⟩

theorem rk4_reordered {c : Config} (hσ : Reorders c.P.Ns σ) (hτ : Reorders c.P.Nd τ)
    (hW : ReorderedWorld S.input_form c.P.Ns c.P.Nd σ τ W W') (hk : 0 < S.cutoff_factor)
    (hc : ∀ c f dt v r u, W.input_ftsuoe c f dt v r = some u → Orderly W S K c)
    {bl tr bl' tr' : Vec3} (hb : bl = tr) (hb' : bl' = tr')
    {f : ℕ} {lv : Vel} {last last' : NDMat} {reg : Bool} {r : StepResult}
    (hl : S.use_drag_Minfinity = false → reg = false → CacheReordered c.P.Ns c.P.Nd σ τ K last last')
    (h : stepRk4 W S bl tr f c lv last reg = some r) :
    ∃ r', stepRk4 W' S bl' tr' f (reorderConfig σ τ c) (reorderVel σ τ lv) last' reg = some r' ∧
      ReorderedStep σ τ K c.P.Ns c.P.Nd r r' := by
  rw [rk4_eq] at h
  obtain ⟨s1, a1, h⟩ := Option.bind_eq_some_iff.mp h
  obtain ⟨v1, b1, h⟩ := Option.bind_eq_some_iff.mp h
  obtain ⟨⟨c1, e1⟩, m1, h⟩ := Option.bind_eq_some_iff.mp h
  obtain ⟨s2, a2, h⟩ := Option.bind_eq_some_iff.mp h
  obtain ⟨v2, b2, h⟩ := Option.bind_eq_some_iff.mp h
  obtain ⟨⟨c2, e2⟩, m2, h⟩ := Option.bind_eq_some_iff.mp h
  obtain ⟨s3, a3, h⟩ := Option.bind_eq_some_iff.mp h
  obtain ⟨v3, b3, h⟩ := Option.bind_eq_some_iff.mp h
  obtain ⟨⟨c3, e3⟩, m3, h⟩ := Option.bind_eq_some_iff.mp h
  obtain ⟨s4, a4, h⟩ := Option.bind_eq_some_iff.mp h
  obtain ⟨v4, b4, h⟩ := Option.bind_eq_some_iff.mp h
  dsimp only at a2 a3 a4 m2 m3 h
  have cc1 := move_counts m1
  have cc2 := move_counts m2
  have cc3 := move_counts m3
  have ord : ∀ {d : Config} {f : ℝ} {last : NDMat} {reg : Bool} {lv : Vel} {st : Stage},
      generate_output_FTSUOE W S d f last reg lv = some st → Orderly W S K d := by
    intro d f last reg lv st h
    obtain ⟨u, -, -, hu, -⟩ := output_some h
    exact hc _ _ _ _ _ _ hu
  obtain ⟨s1', k1, g1⟩ := stage_reordered hσ hτ hW rfl rfl hk (ord a1) hl a1
  obtain ⟨s2', k2, g2⟩ := stage_reordered hσ hτ hW cc1.1 cc1.2 hk (ord a2) (fun _ _ => g1.cache) a2
  obtain ⟨s3', k3, g3⟩ := stage_reordered hσ hτ hW cc2.1 cc2.2 hk (ord a3) (fun _ _ => g1.cache) a3
  obtain ⟨s4', k4, g4⟩ := stage_reordered hσ hτ hW cc3.1 cc3.2 hk (ord a4) (fun _ _ => g1.cache) a4
  have w1 := vel_reordered hσ hτ g1 s1.out.Ea g1.first
  have w2 := vel_reordered hσ hτ g2 s1.out.Ea g1.first
  have w3 := vel_reordered hσ hτ g3 s3.out.Ea g3.first
  have w4 := vel_reordered hσ hτ g4 s4.out.Ea g4.first
  rw [b1, Option.map_some, ← strains_reordered g1] at w1
  rw [b2, Option.map_some, ← strains_reordered g1] at w2
  rw [b3, Option.map_some, ← strains_reordered g3] at w3
  rw [b4, Option.map_some, ← strains_reordered g4] at w4
  have n1 := move_reordered (st' := s1') hσ hτ hb hb' m1
  have n2 := move_reordered (st' := s2') hσ hτ hb hb' m2
  have n3 := move_reordered (st' := s3') hσ hτ hb hb' m3
  obtain ⟨r', hr, hm⟩ := end_reordered (bl' := bl') (tr' := tr') hσ hτ hb hb' g1 g2 g3 g4 h
  refine ⟨r', ?_, hm⟩
  rw [rk4_eq, k1, Option.bind_some, w1, Option.bind_some, n1, Option.bind_some]
  dsimp only
  rw [k2, Option.bind_some, w2, Option.bind_some, n2, Option.bind_some]
  dsimp only
  rw [k3, Option.bind_some, w3, Option.bind_some, n3, Option.bind_some]
  dsimp only
  rw [k4, Option.bind_some, w4, Option.bind_some]
  exact hr

theorem timeStep_reordered {c : Config} (hσ : Reorders c.P.Ns σ) (hτ : Reorders c.P.Nd τ)
    (hW : ReorderedWorld S.input_form c.P.Ns c.P.Nd σ τ W W') (hk : 0 < S.cutoff_factor)
    (hc : ∀ c f dt v r u, W.input_ftsuoe c f dt v r = some u → Orderly W S K c)
    {bl tr bl' tr' : Vec3} (hb : bl = tr) (hb' : bl' = tr')
    {f : ℕ} {lv : Vel} {last last' : NDMat} {reg : Bool} {r : StepResult}
    (hl : S.use_drag_Minfinity = false → reg = false → CacheReordered c.P.Ns c.P.Nd σ τ K last last')
    (h : timeStep W S bl tr f c lv last reg = some r) :
    ∃ r', timeStep W' S bl' tr' f (reorderConfig σ τ c) (reorderVel σ τ lv) last' reg = some r' ∧
      ReorderedStep σ τ K c.P.Ns c.P.Nd r r' := by
  unfold timeStep at h ⊢
  cases hs : S.scheme with
  | euler => rw [hs] at h; exact euler_reordered hσ hτ hW hk hc hb hb' hl h
  | ab2 => rw [hs] at h; exact euler_reordered hσ hτ hW hk hc hb hb' hl h
  | rk4 => rw [hs] at h; exact rk4_reordered hσ hτ hW hk hc hb hb' hl h
  | other => rw [hs] at h; exact absurd h (by simp)

/-! ## Saving -/

theorem savePos_map (g : Config → Config) {f : ℕ} {old new : Config} {l : Option (List Config)} :
    savePositions S f (g old) (g new) (l.map (List.map g))
      = (savePositions S f old new l).map (Option.map (List.map g)) := by
  unfold savePositions
  by_cases h : S.save_positions_every > 0 ∧ f % S.save_positions_every = 0 ∧ f ≥ S.start_saving
  swap
  · rw [if_neg h, if_neg h]; rfl
  rw [if_pos h, if_pos h]
  have last : ∀ l : Option (List Config),
      (if f = S.num_frames - 1 ∧ 0 < S.num_frames then (l.map (List.map g)).map fun l => some (l ++ [g new])
      else some (l.map (List.map g)))
      = (if f = S.num_frames - 1 ∧ 0 < S.num_frames then l.map fun l => some (l ++ [new])
        else some l).map (Option.map (List.map g)) := by
    intro l
    by_cases h3 : f = S.num_frames - 1 ∧ 0 < S.num_frames
    · rw [if_pos h3, if_pos h3]; cases l <;> simp
    · rw [if_neg h3, if_neg h3]; rfl
  by_cases h1 : f = S.start_saving
  · rw [if_pos h1, if_pos h1]
    exact last (some [old])
  rw [if_neg h1, if_neg h1]
  by_cases h2 : f ≠ S.start
  · rw [if_pos h2, if_pos h2]
    cases l with
    | none => rfl
    | some l =>
      have := last (some (l ++ [old]))
      simpa using this
  · rw [if_neg h2, if_neg h2]
    exact last l

theorem saveF_map (g : Forces → Forces) {f : ℕ} {x : Forces} {l : Option (List Forces)} :
    saveForces S f (g x) (l.map (List.map g)) = (saveForces S f x l).map (Option.map (List.map g)) := by
  unfold saveForces
  by_cases h : S.save_forces_every > 0 ∧ f % S.save_forces_every = 0 ∧ f ≥ S.start_saving
  swap
  · rw [if_neg h, if_neg h]; rfl
  rw [if_pos h, if_pos h]
  by_cases h1 : f = S.start_saving <;> by_cases h2 : f = S.start <;> cases l <;> simp [h1, h2] <;> simp_all

theorem savez_reordered {p : Option (List Config)} {g : Option (List Forces)} :
    savez (p.map (List.map (reorderConfig σ τ))) (g.map (List.map (reorderForces σ τ)))
      = (savez p g).map (reorderSaved σ τ) := by
  cases p <;> cases g <;> rfl

theorem saveTemp_reordered {f : ℕ} {p : Option (List Config)} {g : Option (List Forces)} {d : Option Saved} :
    saveTemp S f (p.map (List.map (reorderConfig σ τ))) (g.map (List.map (reorderForces σ τ)))
        (d.map (reorderSaved σ τ))
      = (saveTemp S f p g d).map (Option.map (reorderSaved σ τ)) := by
  unfold saveTemp
  rw [savez_reordered]
  split_ifs <;> simp [Function.comp_def]

theorem final_reordered {s s' : State} (h : ReorderedState σ τ s s') :
    finalSave S s' = (finalSave S s).map fun o => (o.1.map (reorderSaved σ τ), o.2.map (reorderSaved σ τ)) := by
  unfold finalSave
  rw [h.savedPos, h.savedForces, h.temp, savez_reordered]
  split_ifs <;> simp [Function.comp_def]

/-! ## Frames and runs -/

theorem frame_reordered {s s' s1 : State} (hσ : Reorders s.posdata.P.Ns σ) (hτ : Reorders s.posdata.P.Nd τ)
    (hW : ReorderedWorld S.input_form s.posdata.P.Ns s.posdata.P.Nd σ τ W W') (hk : 0 < S.cutoff_factor)
    (hc : ∀ c f dt v r u, W.input_ftsuoe c f dt v r = some u → Orderly W S K c)
    {bl tr bl' tr' : Vec3} (hb : bl = tr) (hb' : bl' = tr') {f : ℕ} (hs : ReorderedState σ τ s s')
    (he : s.error = false)
    (hl : f ≠ S.start → CacheReordered s.posdata.P.Ns s.posdata.P.Nd σ τ K s.cache s'.cache)
    (h : generate_frame W S bl tr f s = some s1) :
    ∃ s1', generate_frame W' S bl' tr' f s' = some s1' ∧ ReorderedState σ τ s1 s1' ∧
      CacheReordered s.posdata.P.Ns s.posdata.P.Nd σ τ K s1.cache s1'.cache := by
  obtain ⟨hn, r, hr, e1, e2, e3, e4, e5, e6, e7⟩ := frame_some he h
  have hv : velIn S f s' = reorderVel σ τ (velIn S f s) := by
    unfold velIn
    by_cases h : f = 0 ∨ f = S.start
    · rw [if_pos h, if_pos h]; rfl
    · rw [if_neg h, if_neg h, hs.lastVel]
  unfold frameStep at hr
  have hl' : S.use_drag_Minfinity = false → regen S f = false →
      CacheReordered s.posdata.P.Ns s.posdata.P.Nd σ τ K (cacheIn S f s) (cacheIn S f s') := by
    intro _ hg
    unfold cacheIn
    rw [hg]
    refine hl ?_
    rintro rfl
    simp [regen] at hg
  obtain ⟨r', hr', hm⟩ := timeStep_reordered (bl' := bl') (tr' := tr') hσ hτ hW hk hc hb hb' hl' hr
  rw [frame_eq (by rw [hs.error]; exact he) hn]
  unfold frameStep
  rw [hs.posdata, hv, hr', Option.bind_some, hm.new, hs.savedPos, savePos_map (reorderConfig σ τ), e5, Option.map_some,
    Option.bind_some, hm.forces, hs.savedForces, saveF_map (reorderForces σ τ), e6, Option.map_some, Option.bind_some,
    hs.temp, saveTemp_reordered, e7, Option.map_some, Option.bind_some]
  refine ⟨_, rfl, ⟨?_, ?_, ?_, rfl, rfl, rfl⟩, ?_⟩
  · rw [e1]
  · exact hm.error.trans e2.symm
  · rw [e4]; exact hm.lastVel
  · rw [e3]; exact hm.cache

theorem run_reordered {s s' : State} (hσ : Reorders s.posdata.P.Ns σ) (hτ : Reorders s.posdata.P.Nd τ)
    (hW : ReorderedWorld S.input_form s.posdata.P.Ns s.posdata.P.Nd σ τ W W') (hk : 0 < S.cutoff_factor)
    (hc : ∀ c f dt v r u, W.input_ftsuoe c f dt v r = some u → Orderly W S K c)
    {bl tr bl' tr' : Vec3} (hb : bl = tr) (hb' : bl' = tr') (hs : ReorderedState σ τ s s') {k : ℕ} :
    ∀ s1, runFrames W S bl tr s k = some s1 →
    ∃ s1', runFrames W' S bl' tr' s' k = some s1' ∧ ReorderedState σ τ s1 s1' ∧
      (k = 0 ∨ s1.error = true ∨ CacheReordered s.posdata.P.Ns s.posdata.P.Nd σ τ K s1.cache s1'.cache) := by
  induction k with
  | zero =>
    intro s1 h
    obtain rfl := Option.some.inj h
    exact ⟨s', rfl, hs, Or.inl rfl⟩
  | succ k ih =>
    intro s2 h
    obtain ⟨s1, h1, h2⟩ := run_prev h
    obtain ⟨s1', g1, m1, f1⟩ := ih s1 h1
    rw [run_succ, g1, Option.bind_some]
    cases he : s1.error with
    | true =>
      rw [frame_error he] at h2
      obtain rfl := Option.some.inj h2
      rw [frame_error (by rw [m1.error]; exact he)]
      exact ⟨s1', rfl, m1, Or.inr (Or.inl he)⟩
    | false =>
      have hz := run_sizes h1
      have z1 : s1.posdata.P.Ns = s.posdata.P.Ns := hz.1
      have z2 : s1.posdata.P.Nd = s.posdata.P.Nd := hz.2.1
      obtain ⟨s2', g2, m2, m3⟩ := frame_reordered (bl' := bl') (tr' := tr') (z1 ▸ hσ) (z2 ▸ hτ)
        (by rw [z1, z2]; exact hW) hk hc hb hb' m1 he (by
        intro hf
        rw [z1, z2]
        rcases f1 with rfl | e | f1
        · exact absurd rfl hf
        · rw [he] at e; exact absurd e (by simp)
        · exact f1) h2
      rw [z1, z2] at m3
      exact ⟨s2', g2, m2, Or.inr (Or.inr m3)⟩

theorem program_reordered {s s' : State} (hσ : Reorders s.posdata.P.Ns σ) (hτ : Reorders s.posdata.P.Nd τ)
    (hW : ReorderedWorld S.input_form s.posdata.P.Ns s.posdata.P.Nd σ τ W W') (hk : 0 < S.cutoff_factor)
    (hc : ∀ c f dt v r u, W.input_ftsuoe c f dt v r = some u → Orderly W S K c)
    (hs : ReorderedState σ τ s s') {out : Option Saved × Option Saved} (h : program W S s = some out) :
    program W' S s' = some (out.1.map (reorderSaved σ τ), out.2.map (reorderSaved σ τ)) := by
  unfold program at h ⊢
  obtain ⟨u, h1, h⟩ := Option.bind_eq_some_iff.mp h
  obtain ⟨s1, h2, h3⟩ := Option.bind_eq_some_iff.mp h
  obtain ⟨u', g1, hu⟩ := hW.input _ _ _ _ none none _ rfl rfl rfl h1
  obtain ⟨s1', g2, m, -⟩ := run_reordered (bl' := u'.bl) (tr' := u'.tr) hσ hτ hW hk hc hu.unbounded hu.unbounded' hs _ h2
  rw [hs.posdata]
  rw [show reorderVel σ τ Vel.blank = Vel.blank from rfl] at g1
  rw [g1, Option.bind_eq_bind, Option.bind_some, g2, Option.bind_eq_bind, Option.bind_some, final_reordered m, h3]
  rfl

end

end SD.Reorder
