import Verif.Lemmas.MovedStage
import Verif.Props.NearDissipation

/-!
# Steps and runs of a moved simulation
-/

set_option autoImplicit false

namespace SD.Move

open Spec Cov

/-! ## Positive definite resistance in every mode -/

theorem posDef_add {A B : NDMat} {n : ℕ}
    (hA : ∀ v : ℕ → ℝ, 0 ≤ ∑ i ∈ Finset.range n, v i * mulVec n A.get v i) (hB : PosDef B.get n) :
    PosDef (A.add B).get n := by
  rw [posDef_iff] at hB ⊢
  intro w hw
  have e : ∀ i, w i * mulVec n (A.add B).get w i = w i * mulVec n A.get w i + w i * mulVec n B.get w i := by
    intro i
    rw [← mul_add]
    congr 1
    unfold mulVec
    rw [← Finset.sum_add_distrib]
    exact Finset.sum_congr rfl fun j _ => by simp only [NDMat.add]; ring
  simp only [e, Finset.sum_add_distrib]
  exact add_pos_of_nonneg_of_pos (hA w) (hB w hw)

theorem posDef_diag {M : ℕ → ℕ → ℝ} {n : ℕ} (h0 : ∀ i j, i ≠ j → M i j = 0) (h1 : ∀ i < n, 0 < M i i) :
    PosDef M n := by
  rw [posDef_iff]
  intro w ⟨k, hk, hw⟩
  have e : ∀ i ∈ Finset.range n, w i * mulVec n M w i = M i i * w i ^ 2 := by
    intro i hi
    unfold mulVec
    rw [Finset.sum_eq_single i (fun j _ hj => by rw [h0 i j (Ne.symm hj), zero_mul]) (fun h => absurd hi h)]
    ring
  rw [Finset.sum_congr rfl e]
  refine Finset.sum_pos' (fun i hi => mul_nonneg (h1 i (Finset.mem_range.mp hi)).le (sq_nonneg _))
    ⟨k, Finset.mem_range.mpr hk, mul_pos (h1 k hk) (by positivity)⟩

/-- The grand resistance matrix and its far-field part are positive definite in every mode. -/
theorem grand_posDef {T : ScalarTable} (hD : TableDissipates T) {P : PosData} {last : NDMat} {reg : Bool} {k : ℝ}
    {dragM only bb : Bool} {mu : ℝ} {R C : NDMat} (hP : Sensible P) (hS : Separate P) (hk : 0 < k)
    (hT : Tabulated T.lam P k) (hmu : 0 < mu) (hbb : bb = true ∨ P.Nd = 0)
    (hl : dragM = false → reg = false → PosDef last.get (side P))
    (h : generate_grand_resistance_matrix T P last reg k dragM only mu bb = some (R, C)) :
    PosDef R.get (side P) ∧ PosDef C.get (side P) := by
  obtain ⟨h1, h2, h3⟩ := grand_some h
  have hC : PosDef C.get (side P) := by
    cases dragM
    · rw [if_pos rfl] at h1
      cases reg
      · rw [if_neg (by simp)] at h1
        rw [← Option.some.inj h1]
        exact hl rfl rfl
      · rw [if_pos rfl] at h1
        obtain ⟨C', hC', -, -, hp⟩ := C59_inverse hP hS hmu hbb
        rw [h1] at hC'
        rw [Option.some.inj hC']
        exact hp
    · obtain ⟨-, -, o, -, p⟩ := C25_drag h
      refine posDef_diag o (p hmu (fun i hi => ?_) fun i hi => ?_)
      · have := hP.radius_pos i (by unfold beads; omega)
        rwa [radius, if_pos hi] at this
      · have := hP.radius_pos (P.Ns + i) (by unfold beads; omega)
        rw [radius, if_neg (by omega), if_pos (by omega)] at this
        rwa [show P.Ns + i - P.Ns = i by omega] at this
  refine ⟨?_, hC⟩
  cases only
  · obtain ⟨N, hN, rfl⟩ := h2 rfl
    obtain ⟨N', hN', -, -, -, n4⟩ := C60_table hD hP hk hT hmu.le bb
    rw [hN] at hN'
    obtain rfl := Option.some.inj hN'
    exact posDef_add n4 hC
  · rw [h3 rfl]
    exact hC

/-! ## Watching -/

theorem watched_input {W : World} {G : Config → Prop} {c : Config} {f dt : ℝ} {v : Vel} {r : Option NDMat} {u : UserInput}
    (h : (watched W G).input_ftsuoe c f dt v r = some u) : G c ∧ W.input_ftsuoe c f dt v r = some u := by
  unfold watched at h
  dsimp only at h
  by_cases hG : G c
  · rw [if_pos hG] at h; exact ⟨hG, h⟩
  · rw [if_neg hG] at h; exact absurd h (by simp)

theorem watched_moved {F : Prop} {form : InputForm} {Q : Fin 3 → Fin 3 → ℝ} {t : Vec3} {W W' : World}
    (h : MovedWorld F form Q t W W') (G : Config → Prop) :
    MovedWorld F form Q t (watched W G) W' where
  table := h.table
  input := fun c f dt v r r' u e hu => h.input c f dt v r r' u e (watched_input hu).2

theorem watched_calm {W : World} {S : Settings} {c : Config} {f dt : ℝ} {v : Vel} {r : Option NDMat} {u : UserInput}
    (h : (watched W (Calm W S)).input_ftsuoe c f dt v r = some u) : Calm (watched W (Calm W S)) S c := by
  have hc := (watched_input h).1
  exact ⟨hc.sensible, hc.separate, hc.tabulated, hc.allowed, hc.beads,
    fun f dt v r u hu => hc.inputs f dt v r u (watched_input hu).2⟩

/-! ## A stage, a step -/

/-- What is asked of every configuration that the simulation visits: from a cache with the property `K` the solver makes
a positive definite resistance matrix and such a cache again. -/
structure Kept (W : World) (S : Settings) (K : ℕ → ℕ → NDMat → Prop) (c : Config) : Prop where
  sensible : Sensible c.P
  tabulated : Tabulated W.table.lam c.P S.cutoff_factor
  allowed : formAllowed S.input_form c.P.Ns
  inputs : ∀ f dt v r u, W.input_ftsuoe c f dt v r = some u → Sized c.P.Ns c.P.Nd u.inp ∧ Traceless u.inp
  solid : ∀ f lv u last reg R C, W.input_ftsuoe c f S.timestep lv none = some u →
    (S.use_drag_Minfinity = false → reg = false → K c.P.Ns c.P.Nd last) →
    generate_grand_resistance_matrix W.table c.P last reg S.cutoff_factor S.use_drag_Minfinity S.use_Minfinity_only
      u.mu S.bead_bead_interactions = some (R, C) → PosDef R.get (side c.P) ∧ K c.P.Ns c.P.Nd C

/-- With a table that dissipates, calm configurations keep the cache positive definite. -/
theorem calm_kept {W : World} {S : Settings} (hD : TableDissipates W.table) (hk : 0 < S.cutoff_factor) {c : Config}
    (h : Calm W S c) : Kept W S (fun Ns Nd C => PosDef C.get (11 * Ns + 6 * Nd)) c :=
  ⟨h.sensible, h.tabulated, h.allowed,
    fun f dt v r u hu => ⟨(h.inputs f dt v r u hu).1, (h.inputs f dt v r u hu).2.1⟩,
    fun _ _ _ _ _ _ _ hu hl hG => grand_posDef hD h.sensible h.separate hk h.tabulated (h.inputs _ _ _ _ _ hu).2.2
      h.beads hl hG⟩

/-- The two caches agree and the first has the property `K`. -/
structure CacheOk (K : ℕ → ℕ → NDMat → Prop) (Ns Nd : ℕ) (Q : Fin 3 → Fin 3 → ℝ) (C C' : NDMat) : Prop where
  moved : CacheMoved Ns Nd Q C C'
  keep : K Ns Nd C

section
variable {K : ℕ → ℕ → NDMat → Prop} {Q : Fin 3 → Fin 3 → ℝ} {t : Vec3} {W W' : World} {S : Settings} {F : Prop}

theorem calm_stage (hQ : Orthogonal Q) (hW : MovedWorld F S.input_form Q t W W')
    (hk : 0 < S.cutoff_factor) (hc : ∀ c f dt v r u, W.input_ftsuoe c f dt v r = some u → Kept W S K c)
    {c : Config} {f : ℝ} {last last' : NDMat} {reg : Bool} {lv : Vel} {st : Stage}
    (hl : S.use_drag_Minfinity = false → reg = false → CacheOk K c.P.Ns c.P.Nd Q last last')
    (h : generate_output_FTSUOE W S c f last reg lv = some st) :
    ∃ st', generate_output_FTSUOE W' S (movedConfig Q t c) f last' reg (turnedVel Q lv) = some st' ∧
      MovedStage F Q t c.P.Ns c.P.Nd st st' ∧ CacheOk K c.P.Ns c.P.Nd Q st.cache st'.cache := by
  obtain ⟨u, R, u2, h1, h2, -⟩ := output_some h
  have k := hc _ _ _ _ _ _ h1
  have pd := fun u R C hu hG => k.solid f lv u last reg R C hu (fun a b => (hl a b).keep) hG
  obtain ⟨st', a, b⟩ := stage_moved hQ hW k.sensible hk k.tabulated k.allowed k.inputs
    (fun u R C hu hG => (pd u R C hu hG).1) (fun a b => (hl a b).moved) h
  refine ⟨st', a, b, b.cache, ?_⟩
  obtain ⟨u', -, m⟩ := hW.input c f S.timestep lv none none u rfl h1
  refine (pd u R st.cache h1 ?_).2
  unfold stageResistance at h2
  rwa [if_neg] at h2
  unfold isPeriodic
  rw [m.unbounded]
  exact fun h => h fun k => sub_self _

/-- What a step of the moved simulation gives. -/
structure MovedStep (K : ℕ → ℕ → NDMat → Prop) (Q : Fin 3 → Fin 3 → ℝ) (t : Vec3) (Ns Nd : ℕ) (r r' : StepResult) : Prop where
  new : r'.new = movedConfig Q t r.new
  error : r'.error = r.error
  lastVel : r'.lastVel = turnedVel Q r.lastVel
  forces : r'.forces = turnedForces Q r.forces
  cache : CacheOk K Ns Nd Q r.cache r'.cache

theorem wrapIf_same {bl tr Ot : Vec3} {Et : Mat3} (h : bl = tr) (x : ℕ → Vec3) : wrapIf bl tr Ot Et x = some x := by
  unfold wrapIf
  rw [if_neg]
  unfold isPeriodic
  rw [h]
  exact fun h => h fun k => sub_self _

theorem flat_turned {v : Vel} (hF : FlatOk S Q) :
    (if S.fully_2d_problem = true then { turnedVel Q v with Ua := zeroY (turnedVel Q v).Ua } else turnedVel Q v)
      = turnedVel Q (if S.fully_2d_problem = true then { v with Ua := zeroY v.Ua } else v) := by
  by_cases h : S.fully_2d_problem = true
  · rw [if_pos h, if_pos h]
    simp only [turnedVel, Vel.mk.injEq, and_self, and_true]
    exact zeroY_turned (hF h) v.Ua
  · rw [if_neg h, if_neg h]

theorem euler_step_moved (hQ : Orthogonal Q) (hW : MovedWorld F S.input_form Q t W W')
    (hk : 0 < S.cutoff_factor) (hF : FlatOk S Q)
    (hc : ∀ c f dt v r u, W.input_ftsuoe c f dt v r = some u → Kept W S K c)
    {bl tr bl' tr' : Vec3} (hb : bl = tr) (hb' : bl' = tr')
    {f : ℕ} {c : Config} {lv : Vel} {last last' : NDMat} {reg : Bool} {r : StepResult}
    (hl : S.use_drag_Minfinity = false → reg = false → CacheOk K c.P.Ns c.P.Nd Q last last')
    (h : stepEulerAb2 W S bl tr f c lv last reg = some r) :
    ∃ r', stepEulerAb2 W' S bl' tr' f (movedConfig Q t c) (turnedVel Q lv) last' reg = some r' ∧
      MovedStep K Q t c.P.Ns c.P.Nd r r' := by
  unfold stepEulerAb2 at h
  obtain ⟨st, h1, h⟩ := Option.bind_eq_some_iff.mp h
  obtain ⟨v0, h2, h⟩ := Option.bind_eq_some_iff.mp h
  obtain ⟨st', k1, k2, k3⟩ := calm_stage hQ hW hk hc hl h1
  have k4 := vel_moved hQ k2 st.out.Ea fun hn => (k2.uniform hn).2
  rw [h2, Option.map_some, ← strains_moved k2] at k4
  unfold stepEulerAb2
  rw [k1, Option.bind_eq_bind, Option.bind_some, k4, Option.bind_eq_bind, Option.bind_some]
  dsimp only at h ⊢
  rw [flat_turned hF]
  generalize (if S.fully_2d_problem = true then { v0 with Ua := zeroY v0.Ua } else v0) = v at h ⊢
  simp only [wrapIf_same hb, wrapIf_same hb'] at h ⊢
  -- spheres
  obtain ⟨sp, h3, h⟩ := Option.bind_eq_some_iff.mp h
  obtain ⟨db, h4, h⟩ := Option.bind_eq_some_iff.mp h
  obtain rfl := Option.some.inj h
  have pos : (movedConfig Q t c).P.spherePos = fun i => movePoint Q t (c.P.spherePos i) := rfl
  have dpos : (movedConfig Q t c).P.dumbPos = fun i => movePoint Q t (c.P.dumbPos i) := rfl
  have dx : (movedConfig Q t c).P.dumbDx = fun i => turnVec Q (c.P.dumbDx i) := rfl
  have rt : (movedConfig Q t c).rots = fun i j => movePoint Q t (c.rots i j) := rfl
  have hs : (if 0 < (movedConfig Q t c).P.Ns then do
        let rots ←
          (if S.scheme = .euler ∨ f - S.start = 0 then
            euler_timestep_rotation (movedConfig Q t c).P.Ns (movedConfig Q t c).P.spherePos (movedConfig Q t c).rots
              (if S.scheme = .euler ∨ f - S.start = 0 then
                euler_timestep (movedConfig Q t c).P.spherePos (turnedVel Q v).Ua S.timestep
              else ab2_timestep (movedConfig Q t c).P.spherePos (turnedVel Q v).Ua (turnedVel Q lv).Ua S.timestep)
              (turnedVel Q v).Oa S.timestep
          else ab2_timestep_rotation (movedConfig Q t c).P.Ns (movedConfig Q t c).P.spherePos (movedConfig Q t c).rots
              (if S.scheme = .euler ∨ f - S.start = 0 then
                euler_timestep (movedConfig Q t c).P.spherePos (turnedVel Q v).Ua S.timestep
              else ab2_timestep (movedConfig Q t c).P.spherePos (turnedVel Q v).Ua (turnedVel Q lv).Ua S.timestep)
              (turnedVel Q v).Oa (turnedVel Q lv).Oa S.timestep : Option Rots)
        let new ← some
              (if S.scheme = .euler ∨ f - S.start = 0 then
                euler_timestep (movedConfig Q t c).P.spherePos (turnedVel Q v).Ua S.timestep
              else ab2_timestep (movedConfig Q t c).P.spherePos (turnedVel Q v).Ua (turnedVel Q lv).Ua S.timestep)
        some (new, rots)
      else some ((movedConfig Q t c).P.spherePos, (movedConfig Q t c).rots) : Option ((ℕ → Vec3) × Rots))
      = some (fun i => movePoint Q t (sp.1 i), fun i j => movePoint Q t (sp.2 i j)) := by
    by_cases hp : 0 < c.P.Ns
    · rw [if_pos hp] at h3
      obtain ⟨rots, g1, g2⟩ := Option.bind_eq_some_iff.mp h3
      obtain rfl := Option.some.inj g2
      rw [if_pos (show 0 < (movedConfig Q t c).P.Ns from hp), pos, rt]
      by_cases he : S.scheme = .euler ∨ f - S.start = 0
      · simp only [if_pos he] at g1 ⊢
        simp only [turnedVel, euler_moved]
        erw [rotation_moved hQ, g1]
        rfl
      · simp only [if_neg he] at g1 ⊢
        simp only [turnedVel, ab2_moved]
        erw [ab2_rotation_moved hQ, g1]
        rfl
    · rw [if_neg hp] at h3
      rw [if_neg (show ¬ 0 < (movedConfig Q t c).P.Ns from hp), ← Option.some.inj h3]
      rfl
  have hd : (if 0 < (movedConfig Q t c).P.Nd then
        if S.scheme = .euler then do
          let new ← some (euler_timestep (movedConfig Q t c).P.dumbPos (turnedVel Q v).Ub S.timestep)
          some (new, euler_timestep (movedConfig Q t c).P.dumbDx (fun i k => 2 * (turnedVel Q v).HalfDUb i k) S.timestep,
            did_something_go_wrong_with_dumbells false (movedConfig Q t c).P.Nd
              (euler_timestep (movedConfig Q t c).P.dumbDx (fun i k => 2 * (turnedVel Q v).HalfDUb i k) S.timestep)
              S.explosion_protection)
        else none
      else some ((movedConfig Q t c).P.dumbPos, (movedConfig Q t c).P.dumbDx, false)
        : Option ((ℕ → Vec3) × (ℕ → Vec3) × Bool))
      = some (fun i => movePoint Q t (db.1 i), fun i => turnVec Q (db.2.1 i), db.2.2) := by
    by_cases hp : 0 < c.P.Nd
    · rw [if_pos hp] at h4
      rw [if_pos (show 0 < (movedConfig Q t c).P.Nd from hp)]
      by_cases he : S.scheme = .euler
      · rw [if_pos he] at h4 ⊢
        obtain rfl := Option.some.inj h4
        simp only [dpos, dx, turnedVel, two_turned, euler_moved, euler_turned, wrong_turned hQ]
        rfl
      · rw [if_neg he] at h4
        exact absurd h4 (by simp)
    · rw [if_neg hp] at h4
      rw [if_neg (show ¬ 0 < (movedConfig Q t c).P.Nd from hp), ← Option.some.inj h4]
      rfl
  erw [hs]
  rw [Option.bind_eq_bind, Option.bind_some]
  erw [hd]
  exact ⟨_, rfl, rfl, rfl, rfl, forces_moved k2, k3⟩

theorem move_moved (hQ : Orthogonal Q) {bl tr bl' tr' : Vec3} (hb : bl = tr) (hb' : bl' = tr') {c c1 : Config}
    {st st' : Stage} {v : Vel} {dt : ℝ} {e e1 : Bool} (h : rk4Move S bl tr c st v dt e = some (c1, e1)) :
    rk4Move S bl' tr' (movedConfig Q t c) st' (turnedVel Q v) dt e = some (movedConfig Q t c1, e1) := by
  unfold rk4Move at h ⊢
  simp only [wrapIf_same hb, wrapIf_same hb'] at h ⊢
  obtain ⟨sp, h3, h⟩ := Option.bind_eq_some_iff.mp h
  obtain ⟨db, h4, h⟩ := Option.bind_eq_some_iff.mp h
  obtain ⟨rfl, rfl⟩ := Prod.mk.inj (Option.some.inj h)
  have pos : (movedConfig Q t c).P.spherePos = fun i => movePoint Q t (c.P.spherePos i) := rfl
  have dpos : (movedConfig Q t c).P.dumbPos = fun i => movePoint Q t (c.P.dumbPos i) := rfl
  have dx : (movedConfig Q t c).P.dumbDx = fun i => turnVec Q (c.P.dumbDx i) := rfl
  have rt : (movedConfig Q t c).rots = fun i j => movePoint Q t (c.rots i j) := rfl
  have hs : (if 0 < (movedConfig Q t c).P.Ns then do
        let rots ← euler_timestep_rotation (movedConfig Q t c).P.Ns (movedConfig Q t c).P.spherePos
              (movedConfig Q t c).rots (euler_timestep (movedConfig Q t c).P.spherePos (turnedVel Q v).Ua dt)
              (turnedVel Q v).Oa dt
        let new ← some (euler_timestep (movedConfig Q t c).P.spherePos (turnedVel Q v).Ua dt)
        some (new, rots)
      else some ((movedConfig Q t c).P.spherePos, (movedConfig Q t c).rots) : Option ((ℕ → Vec3) × Rots))
      = some (fun i => movePoint Q t (sp.1 i), fun i j => movePoint Q t (sp.2 i j)) := by
    by_cases hp : 0 < c.P.Ns
    · rw [if_pos hp] at h3
      obtain ⟨rots, g1, g2⟩ := Option.bind_eq_some_iff.mp h3
      obtain rfl := Option.some.inj g2
      rw [if_pos (show 0 < (movedConfig Q t c).P.Ns from hp), pos, rt]
      simp only [turnedVel, euler_moved]
      erw [rotation_moved hQ, g1]
      rfl
    · rw [if_neg hp] at h3
      rw [if_neg (show ¬ 0 < (movedConfig Q t c).P.Ns from hp), ← Option.some.inj h3]
      rfl
  have hd : (if 0 < (movedConfig Q t c).P.Nd then do
          let new ← some (euler_timestep (movedConfig Q t c).P.dumbPos (turnedVel Q v).Ub dt)
          some (new, euler_timestep (movedConfig Q t c).P.dumbDx (fun i k => 2 * (turnedVel Q v).HalfDUb i k) dt,
            did_something_go_wrong_with_dumbells e (movedConfig Q t c).P.Nd
              (euler_timestep (movedConfig Q t c).P.dumbDx (fun i k => 2 * (turnedVel Q v).HalfDUb i k) dt)
              S.explosion_protection)
      else some ((movedConfig Q t c).P.dumbPos, (movedConfig Q t c).P.dumbDx, e)
        : Option ((ℕ → Vec3) × (ℕ → Vec3) × Bool))
      = some (fun i => movePoint Q t (db.1 i), fun i => turnVec Q (db.2.1 i), db.2.2) := by
    by_cases hp : 0 < c.P.Nd
    · rw [if_pos hp] at h4
      rw [if_pos (show 0 < (movedConfig Q t c).P.Nd from hp)]
      obtain rfl := Option.some.inj h4
      simp only [dpos, dx, turnedVel, two_turned, euler_moved, euler_turned, wrong_turned hQ]
      rfl
    · rw [if_neg hp] at h4
      rw [if_neg (show ¬ 0 < (movedConfig Q t c).P.Nd from hp), ← Option.some.inj h4]
      rfl
  erw [hs]
  rw [Option.bind_eq_bind, Option.bind_some]
  erw [hd]
  rfl

theorem move_counts {bl tr : Vec3} {c c1 : Config}
    {st : Stage} {v : Vel} {dt : ℝ} {e e1 : Bool} (h : rk4Move S bl tr c st v dt e = some (c1, e1)) :
    c1.P.Ns = c.P.Ns ∧ c1.P.Nd = c.P.Nd := by
  unfold rk4Move at h
  obtain ⟨sp, -, h⟩ := Option.bind_eq_some_iff.mp h
  obtain ⟨db, -, h⟩ := Option.bind_eq_some_iff.mp h
  obtain ⟨rfl, rfl⟩ := Prod.mk.inj (Option.some.inj h)
  exact ⟨rfl, rfl⟩

/-- The end of the Runge-Kutta step, after its four stages (`stepRk4`, last lines). -/
noncomputable def rk4End (S : Settings) (bl tr : Vec3) (c : Config) (st1 st2 st3 st4 : Stage) (v1 v2 v3 v4 : Vel) (e3 : Bool) :
    Option StepResult := do
  let Ua0 := blend v1.Ua v2.Ua v3.Ua v4.Ua
  let Ua := if S.fully_2d_problem then zeroY Ua0 else Ua0
  let Oa := blend v1.Oa v2.Oa v3.Oa v4.Oa
  let Ub := blend v1.Ub v2.Ub v3.Ub v4.Ub
  let DUb := fun i k => 2 * blend v1.HalfDUb v2.HalfDUb v3.HalfDUb v4.HalfDUb i k
  let spheres ←
    (if 0 < c.P.Ns then do
      let new ← wrapIf bl tr st1.Ot st1.Et (euler_timestep c.P.spherePos Ua S.timestep)
      let rots ← euler_timestep_rotation c.P.Ns c.P.spherePos c.rots new Oa S.timestep
      some (new, rots)
    else some (c.P.spherePos, c.rots) : Option ((ℕ → Vec3) × Rots))
  let dumbs ←
    (if 0 < c.P.Nd then do
      let new := euler_timestep c.P.dumbPos Ub S.timestep
      let dx := euler_timestep c.P.dumbDx DUb S.timestep
      let error := did_something_go_wrong_with_dumbells e3 c.P.Nd dx S.explosion_protection
      let new ← wrapIf bl tr st1.Ot st1.Et new
      some (new, dx, error)
    else some (c.P.dumbPos, c.P.dumbDx, e3) : Option ((ℕ → Vec3) × (ℕ → Vec3) × Bool))
  some
    { new := ⟨{ c.P with spherePos := spheres.1, dumbPos := dumbs.1, dumbDx := dumbs.2.1 }, spheres.2⟩
      error := dumbs.2.2
      cache := st1.cache
      lastVel := { Ua := Ua, Ub := Ub, HalfDUb := DUb, Oa := Oa }
      forces :=
        { Fa := blendRows st1.out.Fa st2.out.Fa st3.out.Fa st4.out.Fa
          Fb := blendRows st1.out.Fb st2.out.Fb st3.out.Fb st4.out.Fb
          DFb := blendRows st1.out.DFb st2.out.DFb st3.out.DFb st4.out.DFb
          Sa := blendMats st1.out.Sa st2.out.Sa st3.out.Sa st4.out.Sa } }

theorem rk4_eq (W : World) (bl tr : Vec3) (f : ℕ) (c : Config) (lv : Vel) (last : NDMat) (reg : Bool) :
    stepRk4 W S bl tr f c lv last reg =
      (generate_output_FTSUOE W S c f last reg lv).bind fun st1 =>
      (stageVel c st1 st1.out.Ea).bind fun v1 =>
      (rk4Move S bl tr c st1 v1 (S.timestep / 2) false).bind fun p1 =>
      (generate_output_FTSUOE W S p1.1 (f + 0.5) st1.cache (reg && S.rk4_each_stage) lv).bind fun st2 =>
      (stageVel c st2 st1.out.Ea).bind fun v2 =>
      (rk4Move S bl tr c st2 v2 (S.timestep / 2) p1.2).bind fun p2 =>
      (generate_output_FTSUOE W S p2.1 (f + 0.5) st1.cache (reg && S.rk4_each_stage) lv).bind fun st3 =>
      (stageVel c st3 st3.out.Ea).bind fun v3 =>
      (rk4Move S bl tr c st3 v3 S.timestep p2.2).bind fun p3 =>
      (generate_output_FTSUOE W S p3.1 (f + 1) st1.cache (reg && S.rk4_each_stage) lv).bind fun st4 =>
      (stageVel c st4 st4.out.Ea).bind fun v4 =>
      rk4End S bl tr c st1 st2 st3 st4 v1 v2 v3 v4 p3.2 := rfl

theorem end_moved (hQ : Orthogonal Q) (hF : FlatOk S Q) {bl tr bl' tr' : Vec3} (hb : bl = tr) (hb' : bl' = tr')
    {c : Config} {Ns Nd : ℕ} {s1 s2 s3 s4 s1' s2' s3' s4' : Stage} {v1 v2 v3 v4 : Vel} {e3 : Bool} {r : StepResult}
    (g1 : MovedStage F Q t Ns Nd s1 s1') (g2 : MovedStage F Q t Ns Nd s2 s2') (g3 : MovedStage F Q t Ns Nd s3 s3')
    (g4 : MovedStage F Q t Ns Nd s4 s4') (o1 : CacheOk K Ns Nd Q s1.cache s1'.cache)
    (h : rk4End S bl tr c s1 s2 s3 s4 v1 v2 v3 v4 e3 = some r) :
    ∃ r', rk4End S bl' tr' (movedConfig Q t c) s1' s2' s3' s4' (turnedVel Q v1) (turnedVel Q v2) (turnedVel Q v3)
        (turnedVel Q v4) e3 = some r' ∧ MovedStep K Q t Ns Nd r r' := by
  have f1 := forces_moved g1
  have f2 := forces_moved g2
  have f3 := forces_moved g3
  have f4 := forces_moved g4
  simp only [Outputs.forces, turnedForces, Forces.mk.injEq] at f1 f2 f3 f4
  have eU : blend (turnedVel Q v1).Ua (turnedVel Q v2).Ua (turnedVel Q v3).Ua (turnedVel Q v4).Ua
      = fun i => turnVec Q (blend v1.Ua v2.Ua v3.Ua v4.Ua i) := blend_turned _ _ _ _
  have eB : blend (turnedVel Q v1).Ub (turnedVel Q v2).Ub (turnedVel Q v3).Ub (turnedVel Q v4).Ub
      = fun i => turnVec Q (blend v1.Ub v2.Ub v3.Ub v4.Ub i) := blend_turned _ _ _ _
  have eD : blend (turnedVel Q v1).HalfDUb (turnedVel Q v2).HalfDUb (turnedVel Q v3).HalfDUb (turnedVel Q v4).HalfDUb
      = fun i => turnVec Q (blend v1.HalfDUb v2.HalfDUb v3.HalfDUb v4.HalfDUb i) := blend_turned _ _ _ _
  have eO : blend (turnedVel Q v1).Oa (turnedVel Q v2).Oa (turnedVel Q v3).Oa (turnedVel Q v4).Oa
      = fun i => turnAxial Q (blend v1.Oa v2.Oa v3.Oa v4.Oa i) := blend_axial _ _ _ _
  unfold rk4End at h ⊢
  rw [eU, eB, eD, eO, f1.1, f1.2.1, f1.2.2.1, f1.2.2.2, f2.1, f2.2.1, f2.2.2.1, f2.2.2.2, f3.1, f3.2.1, f3.2.2.1,
    f3.2.2.2, f4.1, f4.2.1, f4.2.2.1, f4.2.2.2]
  have e2 : ∀ u : ℕ → Vec3, (if S.fully_2d_problem = true then zeroY fun i => turnVec Q (u i)
      else fun i => turnVec Q (u i))
      = fun i => turnVec Q ((if S.fully_2d_problem = true then zeroY u else u) i) := by
    intro u
    by_cases h : S.fully_2d_problem = true
    · rw [if_pos h, if_pos h, zeroY_turned (hF h)]
    · rw [if_neg h, if_neg h]
  generalize blend v1.Ua v2.Ua v3.Ua v4.Ua = Ua0 at *
  generalize blend v1.Ub v2.Ub v3.Ub v4.Ub = Ub at *
  generalize blend v1.Oa v2.Oa v3.Oa v4.Oa = Oa at *
  generalize blend v1.HalfDUb v2.HalfDUb v3.HalfDUb v4.HalfDUb = Db at *
  dsimp only at h ⊢
  rw [e2]
  generalize (if S.fully_2d_problem = true then zeroY Ua0 else Ua0) = Ua at *
  have pos : (movedConfig Q t c).P.spherePos = fun i => movePoint Q t (c.P.spherePos i) := rfl
  have dpos : (movedConfig Q t c).P.dumbPos = fun i => movePoint Q t (c.P.dumbPos i) := rfl
  have dx : (movedConfig Q t c).P.dumbDx = fun i => turnVec Q (c.P.dumbDx i) := rfl
  have rt : (movedConfig Q t c).rots = fun i j => movePoint Q t (c.rots i j) := rfl
  rw [wrapIf_same hb, wrapIf_same hb] at h
  rw [wrapIf_same hb', wrapIf_same hb']
  obtain ⟨sp, h3, h⟩ := Option.bind_eq_some_iff.mp h
  obtain ⟨db, h4, h⟩ := Option.bind_eq_some_iff.mp h
  obtain rfl := Option.some.inj h
  have hs : (if 0 < (movedConfig Q t c).P.Ns then do
        let new ← some (euler_timestep (movedConfig Q t c).P.spherePos (fun i => turnVec Q (Ua i)) S.timestep)
        let rots ← euler_timestep_rotation (movedConfig Q t c).P.Ns (movedConfig Q t c).P.spherePos
              (movedConfig Q t c).rots new (fun i => turnAxial Q (Oa i)) S.timestep
        some (new, rots)
      else some ((movedConfig Q t c).P.spherePos, (movedConfig Q t c).rots) : Option ((ℕ → Vec3) × Rots))
      = some (fun i => movePoint Q t (sp.1 i), fun i j => movePoint Q t (sp.2 i j)) := by
    by_cases hp : 0 < c.P.Ns
    · rw [if_pos hp] at h3
      rw [Option.bind_eq_bind, Option.bind_some] at h3
      obtain ⟨rots, g1, g2⟩ := Option.bind_eq_some_iff.mp h3
      obtain rfl := Option.some.inj g2
      rw [if_pos (show 0 < (movedConfig Q t c).P.Ns from hp), pos, rt, euler_moved]
      rw [Option.bind_eq_bind, Option.bind_some]
      erw [rotation_moved hQ, g1]
      rfl
    · rw [if_neg hp] at h3
      rw [if_neg (show ¬ 0 < (movedConfig Q t c).P.Ns from hp), ← Option.some.inj h3]
      rfl
  have hd : (if 0 < (movedConfig Q t c).P.Nd then do
          let new ← some (euler_timestep (movedConfig Q t c).P.dumbPos (fun i => turnVec Q (Ub i)) S.timestep)
          some (new, euler_timestep (movedConfig Q t c).P.dumbDx (fun i k => 2 * turnVec Q (Db i) k) S.timestep,
            did_something_go_wrong_with_dumbells e3 (movedConfig Q t c).P.Nd
              (euler_timestep (movedConfig Q t c).P.dumbDx (fun i k => 2 * turnVec Q (Db i) k) S.timestep)
              S.explosion_protection)
      else some ((movedConfig Q t c).P.dumbPos, (movedConfig Q t c).P.dumbDx, e3)
        : Option ((ℕ → Vec3) × (ℕ → Vec3) × Bool))
      = some (fun i => movePoint Q t (db.1 i), fun i => turnVec Q (db.2.1 i), db.2.2) := by
    by_cases hp : 0 < c.P.Nd
    · rw [if_pos hp] at h4
      rw [if_pos (show 0 < (movedConfig Q t c).P.Nd from hp)]
      obtain rfl := Option.some.inj h4
      simp only [dpos, dx, two_turned, euler_moved, euler_turned, wrong_turned hQ]
      rfl
    · rw [if_neg hp] at h4
      rw [if_neg (show ¬ 0 < (movedConfig Q t c).P.Nd from hp), ← Option.some.inj h4]
      rfl
  erw [hs]
  rw [Option.bind_eq_bind, Option.bind_some]
  erw [hd]
  refine ⟨_, rfl, rfl, rfl, ?_, ?_, o1⟩
  · simp only [turnedVel, Vel.mk.injEq, true_and, and_true]
    exact two_turned _
  · simp only [turnedForces, Forces.mk.injEq, blendRows_turned, blendMats_turned, and_self]

theorem rk4_step_moved (hQ : Orthogonal Q) (hW : MovedWorld F S.input_form Q t W W')
    (hk : 0 < S.cutoff_factor) (hF : FlatOk S Q)
    (hc : ∀ c f dt v r u, W.input_ftsuoe c f dt v r = some u → Kept W S K c)
    {bl tr bl' tr' : Vec3} (hb : bl = tr) (hb' : bl' = tr')
    {f : ℕ} {c : Config} {lv : Vel} {last last' : NDMat} {reg : Bool} {r : StepResult}
    (hl : S.use_drag_Minfinity = false → reg = false → CacheOk K c.P.Ns c.P.Nd Q last last')
    (h : stepRk4 W S bl tr f c lv last reg = some r) :
    ∃ r', stepRk4 W' S bl' tr' f (movedConfig Q t c) (turnedVel Q lv) last' reg = some r' ∧
      MovedStep K Q t c.P.Ns c.P.Nd r r' := by
  rw [rk4_eq] at h
  obtain ⟨s1, a1, h⟩ := Option.bind_eq_some_iff.mp h
  obtain ⟨v1, b1, h⟩ := Option.bind_eq_some_iff.mp h
  obtain ⟨⟨c1, e1⟩, m1, h⟩ := Option.bind_eq_some_iff.mp h
  obtain ⟨s2, a2, h⟩ := Option.bind_eq_some_iff.mp h
  obtain ⟨v2, b2, h⟩ := Option.bind_eq_some_iff.mp h
  obtain ⟨⟨c2, e2⟩, m2, h⟩ := Option.bind_eq_some_iff.mp h
  obtain ⟨s3, a3, h⟩ := Option.bind_eq_some_iff.mp h
  obtain ⟨v3, b3, h⟩ := Option.bind_eq_some_iff.mp h
  obtain ⟨⟨c3, e3⟩, m3, h⟩ := Option.bind_eq_some_iff.mp h
  obtain ⟨s4, a4, h⟩ := Option.bind_eq_some_iff.mp h
  obtain ⟨v4, b4, h⟩ := Option.bind_eq_some_iff.mp h
  dsimp only at a2 a3 a4 m2 m3 h
  -- the four stages
  have cc1 := move_counts m1
  have cc2 := move_counts m2
  have cc3 := move_counts m3
  obtain ⟨s1', k1, g1, o1⟩ := calm_stage hQ hW hk hc hl a1
  have later : ∀ {d : Config}, d.P.Ns = c.P.Ns ∧ d.P.Nd = c.P.Nd → (S.use_drag_Minfinity = false →
      (reg && S.rk4_each_stage) = false → CacheOk K d.P.Ns d.P.Nd Q s1.cache s1'.cache) := by
    intro d hd _ _
    rw [hd.1, hd.2]
    exact o1
  obtain ⟨s2', k2, g2, -⟩ := calm_stage hQ hW hk hc (later cc1) a2
  obtain ⟨s3', k3, g3, -⟩ := calm_stage hQ hW hk hc (later cc2) a3
  obtain ⟨s4', k4, g4, -⟩ := calm_stage hQ hW hk hc (later cc3) a4
  rw [cc1.1, cc1.2] at g2
  rw [cc2.1, cc2.2] at g3
  rw [cc3.1, cc3.2] at g4
  have w1 := vel_moved hQ g1 s1.out.Ea fun hn => (g1.uniform hn).2
  have w2 := vel_moved hQ g2 s1.out.Ea fun hn => (g1.uniform hn).2
  have w3 := vel_moved hQ g3 s3.out.Ea fun hn => (g3.uniform hn).2
  have w4 := vel_moved hQ g4 s4.out.Ea fun hn => (g4.uniform hn).2
  rw [b1, Option.map_some, ← strains_moved g1] at w1
  rw [b2, Option.map_some, ← strains_moved g1] at w2
  rw [b3, Option.map_some, ← strains_moved g3] at w3
  rw [b4, Option.map_some, ← strains_moved g4] at w4
  have n1 := move_moved (t := t) (st' := s1') hQ hb hb' m1
  have n2 := move_moved (t := t) (st' := s2') hQ hb hb' m2
  have n3 := move_moved (t := t) (st' := s3') hQ hb hb' m3
  obtain ⟨r', hr, hm⟩ := end_moved (bl' := bl') (tr' := tr') hQ hF hb hb' g1 g2 g3 g4 o1 h
  refine ⟨r', ?_, hm⟩
  rw [rk4_eq, k1, Option.bind_some, w1, Option.bind_some, n1, Option.bind_some]
  dsimp only
  rw [k2, Option.bind_some, w2, Option.bind_some, n2, Option.bind_some]
  dsimp only
  rw [k3, Option.bind_some, w3, Option.bind_some, n3, Option.bind_some]
  dsimp only
  rw [k4, Option.bind_some, w4, Option.bind_some]
  exact hr

theorem timeStep_moved (hQ : Orthogonal Q) (hW : MovedWorld F S.input_form Q t W W')
    (hk : 0 < S.cutoff_factor) (hF : FlatOk S Q)
    (hc : ∀ c f dt v r u, W.input_ftsuoe c f dt v r = some u → Kept W S K c)
    {bl tr bl' tr' : Vec3} (hb : bl = tr) (hb' : bl' = tr')
    {f : ℕ} {c : Config} {lv : Vel} {last last' : NDMat} {reg : Bool} {r : StepResult}
    (hl : S.use_drag_Minfinity = false → reg = false → CacheOk K c.P.Ns c.P.Nd Q last last')
    (h : timeStep W S bl tr f c lv last reg = some r) :
    ∃ r', timeStep W' S bl' tr' f (movedConfig Q t c) (turnedVel Q lv) last' reg = some r' ∧
      MovedStep K Q t c.P.Ns c.P.Nd r r' := by
  unfold timeStep at h ⊢
  cases hs : S.scheme with
  | euler => rw [hs] at h; exact euler_step_moved hQ hW hk hF hc hb hb' hl h
  | ab2 => rw [hs] at h; exact euler_step_moved hQ hW hk hF hc hb hb' hl h
  | rk4 => rw [hs] at h; exact rk4_step_moved hQ hW hk hF hc hb hb' hl h
  | other => rw [hs] at h; exact absurd h (by simp)

end

end SD.Move
