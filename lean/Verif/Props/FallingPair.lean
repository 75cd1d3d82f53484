import Verif.Props.SelfImage
import Verif.Lemmas.Origin
import Verif.Props.RenumberRun
import Mathlib.Tactic.IntervalCases

/-!
# C92, continued: equal spheres that fall side by side
-/

set_option autoImplicit false

namespace SD

open Spec Cov Reorder Move Ship
open Pair (pack_f)

variable {W : World} {S : Settings} {c d : Config} {K0 : NDMat → Prop} {G : Set Symmetry}

/-- What a run of falling spheres is made of. -/
structure Falls (W : World) (S : Settings) (G : Set Symmetry) (c : Config) (K0 : NDMat → Prop) : Prop where
  ships : Ships 1 .fte W
  form : S.input_form = .fte
  any : 0 < c.P.Ns
  sym : Assembly c.P G
  balanced : TableBalanced W.table c.P
  run : Runnable S c.P.Nd
  steady : Steady W S c
  apart : ¬ Touching c.P
  serves : ∀ d, SameSizes c d → Ready W S d → Serves W S K0 d
  sound : ∀ C, K0 C → Sound c.P C

theorem Spec.InStep.centres (h0 : c.P.Nd = 0) (hd : InStep c d) {x y : ℕ} (hx : x < beads c.P) (hy : y < beads c.P) (k : Fin 3) :
    centre d.P x k - centre d.P y k = centre c.P x k - centre c.P y k := by
  have e := hd.sizes.Ns
  unfold beads at hx hy
  rw [h0] at hx hy
  have := hd.apart x (by omega) y (by omega) k
  simp only [centre, e, show x < c.P.Ns by omega, show y < c.P.Ns by omega, if_true]
  exact this

theorem Spec.InStep.image (h0 : c.P.Nd = 0) (hd : InStep c d) {Q : Fin 3 → Fin 3 → ℝ} {σ : ℕ → ℕ}
    (h : SelfImage c.P Q σ fun i => i) : SelfImage d.P Q σ fun i => i := by
  have e1 := hd.sizes.Ns
  have e2 := hd.sizes.Nd
  obtain ⟨b, r⟩ := same_beads hd.sizes
  have lt : ∀ {x}, x < beads c.P → beadMap c.P.Ns c.P.Nd σ (fun i => i) x < beads c.P := fun hx =>
    (renum_map h.spheres h.dumbs).lt hx
  refine ⟨h.orth, e1 ▸ h.spheres, e2 ▸ h.dumbs, fun x hx y hy => ?_, fun x hx => ?_⟩
  · rw [b] at hx hy
    rw [e1, e2]
    simp only [hd.centres h0 hx hy, hd.centres h0 (lt hx) (lt hy)]
    exact h.apart x hx y hy
  · rw [b] at hx
    rw [e1, e2, r]
    exact h.size x hx

theorem Spec.InStep.assembly (h : Assembly c.P G) (hd : InStep c d) : Assembly d.P G :=
  ⟨hd.sizes.Nd.trans h.Nd, fun g hg => hd.image h.Nd (h.image g hg), h.gravity, by rw [hd.sizes.Ns]; exact h.only⟩

theorem Spec.InStep.touching (h0 : c.P.Nd = 0) (hd : InStep c d) (ht : ¬ Touching c.P) : ¬ Touching d.P := by
  rintro ⟨x, hx, y, hy, hxy, hl⟩
  obtain ⟨e1, e2⟩ := same_beads hd.sizes
  rw [e1] at hx hy
  refine ht ⟨x, hx, y, hy, hxy, ?_⟩
  rw [e2] at hl
  convert hl using 2
  funext k
  exact (hd.centres h0 hx hy k).symm

/-- The cache of such a run. -/
def Kept (G : Set Symmetry) (c : Config) (K0 : NDMat → Prop) (C : NDMat) : Prop :=
  K0 C ∧ ∀ g ∈ G, Commutes c.P g.Q g.σ (fun i => i) C

theorem commutes_sizes (h : SameSizes c d) {Q : Fin 3 → Fin 3 → ℝ} {σ : ℕ → ℕ} {C : NDMat} :
    Commutes d.P Q σ (fun i => i) C ↔ Commutes c.P Q σ (fun i => i) C := by
  have e : side d.P = side c.P := by unfold side; rw [h.Ns, h.Nd]
  unfold Commutes
  rw [e, h.Ns, h.Nd]

theorem Falls.ready (h : Falls W S G c K0) (hd : InStep c d) : Ready W S d :=
  steady_ready h.steady hd.sizes (hd.touching h.sym.Nd h.apart)

theorem Falls.solver (h : Falls W S G c K0) (hd : InStep c d) : Serves W S (Kept G c K0) d := by
  intro f lv u last reg hu hl
  have hr := h.ready hd
  obtain ⟨R, C, hg, sR, kC⟩ := h.serves d hd.sizes hr hu (fun a b => (hl a b).1)
  exact ⟨R, C, hg, sR, kC, fun g hG => (commutes_sizes hd.sizes).mp (grand_image ((hd.assembly h.sym).image g hG)
    hr.sensible h.run.cutoff hr.tabulated (balanced_of_sizes hd.sizes h.balanced)
    (fun a b => (commutes_sizes hd.sizes).mpr ((hl a b).2 g hG)) hg).2⟩

theorem replicate_num {α β : Type} {g : α → β} (hg : Function.Injective g) {n : ℕ} {a : α} {l : List α}
    (h : List.replicate n (g a) = l.map g) : l = List.replicate n a :=
  (hg.list_map (by simpa using h)).symm

theorem replicate_getD {α : Type} {n i : ℕ} (h : i < n) (a b : α) : (List.replicate n a).getD i b = a := by
  simp [List.getD, h]

/-- What a stage makes of spheres under gravity whose strains are prescribed to be zero. -/
structure Pulled (W : World) (S : Settings) (K : NDMat → Prop) (d : Config) (last : NDMat) (reg : Bool) (st : Stage) : Prop where
  forces : st.out.Fa = List.replicate d.P.Ns ![0, 0, -1]
  torques : st.out.Ta = List.replicate d.P.Ns 0
  strains : st.out.Ea = List.replicate d.P.Ns 0
  U : st.U = 0
  O : st.O = 0
  cache : K st.cache
  solves : ∃ R, Sound d.P R ∧ Solves d.P.Ns d.P.Nd R st.out
  image : ∀ g : Symmetry, SelfImage d.P g.Q g.σ (fun i => i) → (∀ k, g.ε * turnVec g.Q ![0, 0, -1] k = ![0, 0, -1] k) →
    (S.use_drag_Minfinity = false → reg = false → Commutes d.P g.Q g.σ (fun i => i) last) →
    ∀ i < d.P.Ns, st.out.Ua.getD i 0 = fun k => g.ε * turnVec g.Q (st.out.Ua.getD (g.σ i) 0) k

theorem gravity_pulled {K : NDMat → Prop} (hW : Ships 1 .fte W) (hform : S.input_form = .fte) (hext : S.extract = false)
    (hcut : 0 < S.cutoff_factor) (hN : 0 < d.P.Ns) (h0 : d.P.Nd = 0) (hr : Ready W S d) (hB : TableBalanced W.table d.P)
    (hsv : Serves W S K d) (hK : ∀ C, K C → Sound d.P C) {f : ℝ} {last : NDMat} {reg : Bool} {lv : Vel} {st : Stage}
    (hl : S.use_drag_Minfinity = false → reg = false → K last)
    (hs : generate_output_FTSUOE W S d f last reg lv = some st) : Pulled W S K d last reg st := by
  obtain ⟨u, R, u2, hu, hres, -, hfte, hsol, eU, eO, -⟩ := output_some hs
  obtain ⟨X, -, hu2⟩ := hfte hform
  obtain ⟨R', C', hg, sR, kC⟩ := hsv hu hl
  have hnp : ¬ isPeriodic u.bl u.tr := by
    rw [hW, gravity_input] at hu
    obtain rfl := Option.some.inj hu
    intro hh
    unfold isPeriodic at hh
    simp [defaultUserInput] at hh
  unfold stageResistance at hres
  rw [if_neg hnp, hg] at hres
  obtain ⟨rfl, e⟩ := Prod.mk.inj (Option.some.inj hres)
  have hx : Sized d.P.Ns d.P.Nd u2.inp := by
    obtain ⟨u', a, b, -⟩ := hr.answers f S.timestep lv (some X)
    rw [hu2] at a
    obtain rfl := Option.some.inj a
    exact b
  rw [hW, gravity_input] at hu2
  have hu2 := Option.some.inj hu2
  rw [hform, hext] at hsol
  have hf : formAllowed .fte d.P.Ns := ⟨fun h0 => absurd hN (by omega), by simp⟩
  obtain ⟨s, e'⟩ := solve_echo hf hx sR.rows (fun i _ j _ => sR.symm i j) hsol
  have i3 : Function.Injective num3 := fun a b h => num3_inj h
  have i33 : Function.Injective num33 := fun a b h => num33_inj h
  have pF : st.out.Fa = List.replicate d.P.Ns ![0, 0, -1] := by
    refine replicate_num i3 (Eq.trans ?_ e'.1)
    rw [← hu2]; rfl
  have pT : st.out.Ta = List.replicate d.P.Ns 0 := by
    refine replicate_num i3 (Eq.trans ?_ e'.2.1)
    rw [← hu2]; rfl
  have pE : st.out.Ea = List.replicate d.P.Ns 0 := by
    refine replicate_num i33 (Eq.trans ?_ e'.2.2.1)
    rw [← hu2]; rfl
  have five0 : ∀ i, five (0 : Mat3) i = 0 := by intro i; fin_cases i <;> simp [five]
  refine ⟨pF, pT, pE, by rw [eU, ← hu2]; rfl, by rw [eO, ← hu2]; rfl, by rw [← e]; exact kC, ⟨_, sR, s⟩,
    fun g hI hgrav hcom i hi => ?_⟩
  have bm : ∀ v < d.P.Ns, beadMap d.P.Ns d.P.Nd g.σ (fun i => i) v = g.σ v := fun v hv => by simp [beadMap, hv]
  have same : GivenSame .fte d.P.Ns d.P.Nd g.ε g.Q g.σ (fun i => i)
      (pack d.P.Ns d.P.Nd st.out.Fa st.out.Ta st.out.Sa st.out.Fb st.out.DFb)
      (pack d.P.Ns d.P.Nd st.out.Ua st.out.Oa st.out.Ea st.out.Ub st.out.HalfDUb) := by
    intro v k hv
    have hv' : v < d.P.Ns := by
      have : v < d.P.Ns + 2 * d.P.Nd := owns_lt (owns_kind hv)
      rw [h0] at this
      omega
    have hσ := hI.spheres.lt v hv'
    cases k with
    | f k =>
      show SameAt _ _ _ _ _ _ _ _ _
      unfold SameAt
      rw [bm v hv']
      simp only [pack_f hv', pack_f hσ, comps, pF, turnComp, replicate_getD hv', replicate_getD hσ]
      exact (hgrav k).symm
    | t k =>
      show SameAt _ _ _ _ _ _ _ _ _
      unfold SameAt
      rw [bm v hv']
      simp only [pack_f hv', pack_f hσ, comps, pT, turnComp, replicate_getD hv', replicate_getD hσ, Pi.zero_apply, mul_zero,
        Finset.sum_const_zero]
    | s k =>
      show SameAt _ _ _ _ _ _ (pack _ _ _ _ _ _ _) _ _
      unfold SameAt
      rw [bm v hv']
      simp only [pack_f hv', pack_f hσ, comps, pE, turnComp, replicate_getD hv', replicate_getD hσ, five0, mul_zero,
        Finset.sum_const_zero]
  obtain ⟨-, -, hm, -⟩ := C92_symmetric hr.sensible hcut hr.tabulated hB hI (fun a b =>
    ⟨(hK _ (hl a b)).symm, ⟨(hK _ (hl a b)).rows, (hK _ (hl a b)).cols⟩, hcom a b⟩) hg (.inr rfl) hf hx hsol same
  funext k
  have := hm i (.f k) (by simp [HasRow]; omega)
  unfold SameAt at this
  rw [bm i hi] at this
  simp only [pack_f hi, pack_f (hI.spheres.lt i hi), comps, turnComp] at this
  exact this

/-- Each stage gives all spheres the same velocity. -/
theorem Falls.stage (h : Falls W S G c K0) (hd : InStep c d) {f : ℝ} {last : NDMat} {reg : Bool} {lv : Vel} {st : Stage}
    (hl : S.use_drag_Minfinity = false → reg = false → Kept G c K0 last)
    (hs : generate_output_FTSUOE W S d f last reg lv = some st) :
    Kept G c K0 st.cache ∧ ∀ i < c.P.Ns, ∀ j < c.P.Ns, ∀ x y, sphereVel st i x = sphereVel st j y := by
  have h2 := hd.assembly h.sym
  have hN := hd.sizes.Ns
  have p := gravity_pulled h.ships h.form h.run.extract h.run.cutoff (by rw [hN]; exact h.any) h2.Nd (h.ready hd)
    (balanced_of_sizes hd.sizes h.balanced) (h.solver hd) (fun C hC => (h.sound C hC.1).of_counts hN hd.sizes.Nd) hl hs
  refine ⟨p.cache, fun i hi j hj x y => ?_⟩
  rw [← hN] at hi hj
  have pU := h2.only (fun i => st.out.Ua.getD i 0) (fun g hg => p.image g (h2.image g hg) (h2.gravity g hg)
    fun a b => (commutes_sizes hd.sizes).mpr ((hl a b).2 g hg)) i hi j hj
  unfold sphereVel
  rw [pU, p.strains, p.U, p.O, replicate_getD hi, replicate_getD hj]
  funext k
  fin_cases k <;> simp [affineFlow, cross, app, dotp]

/-- One velocity for all spheres. -/
def One (n : ℕ) (v : ℕ → Vec3) : Prop := ∀ i < n, ∀ j < n, v i = v j

/-- One velocity for all spheres keeps them beside each other. -/
theorem Spec.InStep.step (hd : InStep c d) {e : Config} (hz : SameSizes d e) {v : ℕ → Vec3} (hv : One c.P.Ns v)
    {τ : ℝ} (he : e.P.spherePos = euler_timestep d.P.spherePos v τ) : InStep c e := by
  refine ⟨SameSizes.trans hd.sizes hz, fun i hi j hj k => ?_⟩
  have := hd.apart i hi j hj k
  have hk := congrFun (hv i hi j hj) k
  rw [he]
  simp only [euler_timestep]
  rw [hk]
  linarith

theorem stage_vel {n : ℕ} {st : Stage} {Ed : List Mat3} {v : Vel} (hN : d.P.Ns = n) (hv : stageVel d st Ed = some v)
    (hs : ∀ i < n, ∀ j < n, ∀ x y, sphereVel st i x = sphereVel st j y) : One n v.Ua := by
  intro i hi j hj
  rw [(stageVel_spheres hv (i := i) (by omega)).1, (stageVel_spheres hv (i := j) (by omega)).1]
  exact hs i hi j hj _ _

theorem Spec.InStep.move (hd : InStep c d) (hN0 : 0 < c.P.Ns) {bl tr : Vec3} (hbox : ∀ k, bl k - tr k = 0) {st : Stage}
    {Ed : List Mat3} {v : Vel} {τ : ℝ} {e : Bool} {p : Config × Bool} (hv : stageVel d st Ed = some v)
    (hs : ∀ i < c.P.Ns, ∀ j < c.P.Ns, ∀ x y, sphereVel st i x = sphereVel st j y)
    (h : rk4Move S bl tr d st v τ e = some p) : InStep c p.1 := by
  have hp : MoveParts S bl tr d st v τ e p.1 p.2 := move_parts h
  have hN := hd.sizes.Ns
  have m := (hp.spheres (by omega)).1
  rw [wrapIf_nonperiodic (fun h => h hbox)] at m
  exact hd.step (move_sizes h) (stage_vel hN hv hs) m

theorem Falls.inner (h : Falls W S G c K0) (hd : InStep c d) {bl tr : Vec3} (hbox : ∀ k, bl k - tr k = 0) {fr : ℕ} {lv : Vel}
    {last : NDMat} {reg : Bool} (hl : S.use_drag_Minfinity = false → reg = false → Kept G c K0 last) {e : Config}
    (hi : Inner W S bl tr fr d lv last reg e) : InStep c e := by
  obtain ⟨st1, v1, p1, a1, b1, m1, hi⟩ := hi
  have t1 := h.stage hd hl a1
  have q1 := hd.move h.any hbox b1 t1.2 m1
  rcases hi with rfl | ⟨st2, v2, p2, a2, b2, m2, hi⟩
  · exact q1
  have t2 := h.stage q1 (fun _ _ => t1.1) a2
  have q2 := hd.move h.any hbox b2 t2.2 m2
  rcases hi with rfl | ⟨st3, v3, p3, a3, b3, m3, rfl⟩
  · exact q2
  exact hd.move h.any hbox b3 (h.stage q2 (fun _ _ => t1.1) a3).2 m3

theorem Falls.visits (h : Falls W S G c K0) {bl tr : Vec3} (hbox : ∀ k, bl k - tr k = 0) {s : State} (hs : InStep c s.posdata)
    {fr : ℕ} (hl : S.use_drag_Minfinity = false → regen S fr = false → Kept G c K0 (cacheIn S fr s)) {e : Config}
    (hv : Visits W S bl tr fr s e) : InStep c e := by
  rcases visits_eq.mp hv with rfl | ⟨-, hv⟩
  · exact hs
  · exact h.inner hs hbox hl hv

theorem zeroY_same {n : ℕ} {u : ℕ → Vec3} (h : One n u) : One n (zeroY u) := by
  intro i hi j hj
  funext k
  simp only [zeroY, h i hi j hj]

theorem blend_same {a b e f : ℕ → Vec3} {n : ℕ} (ha : One n a) (hb : One n b) (he : One n e) (hf : One n f) :
    One n (blend a b e f) := by
  intro i hi j hj
  funext k
  simp only [blend, ha i hi j hj, hb i hi j hj, he i hi j hj, hf i hi j hj]

/-- A step from spheres in step. -/
theorem Falls.frame (h : Falls W S G c K0) {bl tr : Vec3} (hbox : ∀ k, bl k - tr k = 0) (hd : InStep c d) {fr : ℕ} {lv : Vel}
    {last : NDMat} {reg : Bool} (hlv : One c.P.Ns lv.Ua)
    (hl : S.use_drag_Minfinity = false → reg = false → Kept G c K0 last) {r : StepResult}
    (hr : timeStep W S bl tr fr d lv last reg = some r) :
    InStep c r.new ∧ r.error = false ∧ Kept G c K0 r.cache ∧ One c.P.Ns r.lastVel.Ua := by
  have h2 := hd.assembly h.sym
  have hN' := hd.sizes.Ns
  have hN : 0 < d.P.Ns := by rw [hN']; exact h.any
  have hz := timeStep_sizes hr
  have hz' : SameSizes d r.new := ⟨hz.1, hz.2.1, hz.2.2.1, hz.2.2.2⟩
  have np : ¬ isPeriodic bl tr := fun h => h hbox
  rcases timeStep_cases hr with ⟨-, hr⟩ | ⟨-, hr⟩
  · obtain ⟨st, v0, v, p⟩ := euler_parts hr
    have t := h.stage hd hl p.stage
    have w0 := stage_vel hN' p.vel t.2
    have w : One c.P.Ns v.Ua := by
      rw [p.flat]
      split
      · exact zeroY_same w0
      · exact w0
    obtain ⟨new, rots, e1, -, e2, -⟩ := p.spheres hN
    rw [wrapIf_nonperiodic np] at e2
    refine ⟨?_, (p.noDumbs h2.Nd).2.2, by rw [p.cache_eq]; exact t.1, by rw [p.vel_eq]; exact w⟩
    split at e1
    · exact hd.step hz' w (e2.trans e1)
    · refine hd.step hz' (v := fun i k => 1.5 * v.Ua i k - 0.5 * lv.Ua i k) ?_ (e2.trans e1)
      intro i hi j hj
      simp only [w i hi j hj, hlv i hi j hj]
  · obtain ⟨st, v, c1, c2, c3, b1, b2, b3, p⟩ := rk4_parts hr
    have t1 := h.stage hd hl p.stage1
    have q1 : InStep c c1 := hd.move h.any hbox p.vel1 t1.2 p.move1
    have t2 := h.stage q1 (fun _ _ => t1.1) p.stage2
    have q2 : InStep c c2 := hd.move h.any hbox p.vel2 t2.2 p.move2
    have t3 := h.stage q2 (fun _ _ => t1.1) p.stage3
    have q3 : InStep c c3 := hd.move h.any hbox p.vel3 t3.2 p.move3
    have t4 := h.stage q3 (fun _ _ => t1.1) p.stage4
    have w := blend_same (stage_vel hN' p.vel1 t1.2) (stage_vel hN' p.vel2 t2.2) (stage_vel hN' p.vel3 t3.2)
      (stage_vel hN' p.vel4 t4.2)
    have w' : One c.P.Ns r.lastVel.Ua := by
      rw [p.vel_eq]
      dsimp only
      split
      · exact zeroY_same w
      · exact w
    have m := (p.spheres hN).1
    rw [wrapIf_nonperiodic np] at m
    have g1 := (MoveParts.noDumbs (move_parts p.move1) h2.Nd).2.2
    have g2 := (MoveParts.noDumbs (move_parts p.move2) h2.Nd).2.2
    have g3 := (MoveParts.noDumbs (move_parts p.move3) h2.Nd).2.2
    exact ⟨hd.step hz' w' m, by rw [(p.noDumbs h2.Nd).2.2, g3, g2, g1], by rw [p.cache_eq]; exact t1.1, w'⟩

theorem Falls.states (h : Falls W S G c K0) {bl tr : Vec3} (hbox : ∀ k, bl k - tr k = 0) {k : ℕ} {s : State}
    (hs : runFrames W S bl tr (State.fresh c) k = some s) :
    InStep c s.posdata ∧ s.error = false ∧ One c.P.Ns (velIn S k s).Ua ∧
      (S.use_drag_Minfinity = false → regen S k = false → Kept G c K0 (cacheIn S k s)) := by
  induction k generalizing s with
  | zero =>
    obtain rfl := Option.some.inj hs
    refine ⟨⟨⟨rfl, rfl, rfl, rfl⟩, fun _ _ _ _ _ => rfl⟩, rfl, ?_, fun _ hg => ?_⟩
    · unfold velIn; rw [if_pos (.inl rfl)]; exact fun _ _ _ _ => rfl
    · simp [regen] at hg
  | succ k ih =>
    obtain ⟨s1, h1, h2⟩ := run_prev hs
    obtain ⟨i1, i2, i3, i4⟩ := ih h1
    rw [h.run.start, Nat.zero_add] at h2
    obtain ⟨-, r, hr, e1, e2, e3, e4, -⟩ := frame_some i2 h2
    obtain ⟨q1, q2, q3, q4⟩ := h.frame hbox i1 i3 i4 hr
    refine ⟨by rw [e1]; exact q1, by rw [e2]; exact q2, ?_, fun _ hg => ?_⟩
    · unfold velIn
      split
      · exact fun _ _ _ _ => rfl
      · rw [e4]; exact q4
    · unfold cacheIn
      rw [hg, e3]
      exact q3

theorem Falls.endless (h : Falls W S G c K0) (ha : Arrows c) {u : UserInput}
    (hu : W.input_ftsuoe c 0 0.1 Vel.blank none = some u) :
    (0 < S.num_frames → ∃ out, program W S (State.fresh c) = some (some out, none)) ∧
    ∀ k, ∃ s, runFrames W S u.bl u.tr (State.fresh c) k = some s ∧ s.error = false ∧ InStep c s.posdata := by
  have hbox : ∀ v, W.input_ftsuoe c 0 0.1 Vel.blank none = some v → ∀ k, v.bl k - v.tr k = 0 := by
    intro v hv k
    rw [h.ships, gravity_input] at hv
    rw [← Option.some.inj hv]
    exact sub_self _
  have all : ∀ v, W.input_ftsuoe c 0 0.1 Vel.blank none = some v → ∀ j s,
      runFrames W S v.bl v.tr (State.fresh c) j = some s → ∀ e, Visits W S v.bl v.tr j s e →
      Ready W S e ∧ Serves W S (Kept G c K0) e := by
    intro v hv j s hs e he
    obtain ⟨i1, -, -, i4⟩ := h.states (hbox v hv) hs
    have q := h.visits (hbox v hv) i1 i4 he
    exact ⟨h.ready q, h.solver q⟩
  refine ⟨fun hN => program_exists (K := Kept G c K0) h.run ha hN (h.ready ⟨⟨rfl, rfl, rfl, rfl⟩, fun _ _ _ _ _ => rfl⟩)
    fun v hv j _ s hs _ e he => all v hv j s hs e he, fun k => ?_⟩
  have hb : u.bl = u.tr := by funext k; linarith [hbox u hu k]
  obtain ⟨s, hs, -⟩ := run_exists (K := Kept G c K0) h.run ha hb k fun j _ s hs _ e he => all u hu j s hs e he
  obtain ⟨i1, i2, -⟩ := h.states (hbox u hu) hs
  exact ⟨s, hs, i2, i1⟩

theorem falls_of (hG : Assembly c.P G) (hB : TableBalanced W.table c.P) (hW : Ships 1 .fte W) (hform : S.input_form = .fte)
    (hN : 0 < c.P.Ns) (hR : Runnable S c.P.Nd) {a : ℝ} (ha : 1 / 10 ^ 8 < a) (hE : EqualBeads c.P a)
    (hl : ∃ t ∈ W.table.lam, |t - 1| ≤ 1 / 10 ^ 8 + 1 / 10 ^ 5) (h0 : ¬ Touching c.P)
    (hs : ∀ d, SameSizes c d → Ready W S d → Serves W S K0 d) (hk : ∀ C, K0 C → Sound c.P C) : Falls W S G c K0 := by
  have a0 : 0 < a := lt_trans (by norm_num) ha
  refine ⟨hW, hform, hN, hG, hB, hR, shipped_steady hW hform (fun x hx => by rw [hE x hx]; exact ha) (fun x hx y hy => ?_) ?_
    (.inr hG.Nd) (by omega) (by omega) (by omega) ?_, h0, hs, hk⟩
  · rw [hE x hx, hE y hy, div_self a0.ne', abs_one, mul_one]
    exact hl
  · exact ⟨fun h => absurd hN (by omega), by simp⟩
  · show 1 ≤ 1 ∧ 1 ≤ 7
    omega

/-- **C92** (falling assemblies). Equal spheres under gravity, with the strain of each sphere prescribed to be zero, whose
symmetries leave them no choice but to fall with one velocity, and a table that dissipates: the program always writes its
file, in every scheme, and in every frame all spheres are apart exactly as they were in the beginning. -/
theorem C92_assembly (hD : TableDissipates W.table) (hW : Ships 1 .fte W) (hform : S.input_form = .fte)
    (hG : Assembly c.P G) (hN : 0 < c.P.Ns) (hR : Runnable S c.P.Nd) (har : Arrows c) {a : ℝ} (ha : 1 / 10 ^ 8 < a)
    (hE : EqualBeads c.P a) (hl : ∃ t ∈ W.table.lam, |t - 1| ≤ 1 / 10 ^ 8 + 1 / 10 ^ 5) (h0 : ¬ Touching c.P) {u : UserInput}
    (hu : W.input_ftsuoe c 0 0.1 Vel.blank none = some u) :
    (0 < S.num_frames → ∃ out, program W S (State.fresh c) = some (some out, none)) ∧
    ∀ k, ∃ s, runFrames W S u.bl u.tr (State.fresh c) k = some s ∧ s.error = false ∧ InStep c s.posdata :=
  (falls_of (K0 := Sound c.P) hG (equal_balanced _ hE) hW hform hN hR ha hE hl h0
    (fun _ hs hr {_ _ _ _ _} => dissipates_serves hD hR.cutoff hr hs.Ns hs.Nd) fun _ h => h).endless har hu

/-- **C92** (falling assemblies, shipped table). The same with the table that is shipped with the program, for which the
near field alone can gain energy. -/
theorem C92_assembly_shipped (hT : W.table = shippedTable) (hdrag : S.use_drag_Minfinity = false) (hW : Ships 1 .fte W)
    (hform : S.input_form = .fte) (hG : Assembly c.P G) (hN : 0 < c.P.Ns) (hR : Runnable S c.P.Nd) (har : Arrows c) {a : ℝ}
    (ha : 1 / 10 ^ 8 < a) (hE : EqualBeads c.P a) (h0 : ¬ Touching c.P) {u : UserInput}
    (hu : W.input_ftsuoe c 0 0.1 Vel.blank none = some u) :
    (0 < S.num_frames → ∃ out, program W S (State.fresh c) = some (some out, none)) ∧
    ∀ k, ∃ s, runFrames W S u.bl u.tr (State.fresh c) k = some s ∧ s.error = false ∧ InStep c s.posdata := by
  refine (falls_of (K0 := Stiff c a 1) hG (equal_balanced _ hE) hW hform hN hR ha hE (by
      rw [hT]; exact ⟨1, by simp [shippedTable], by norm_num⟩) h0
    (fun _ hs hr {_ _ _ _ _} => shipped_serves hT hdrag hR.cutoff (lt_trans (by norm_num) ha) hE (fun d f dt v r u hu => ?_) hr hs)
    fun _ h => h.sound).endless har hu
  rw [hW] at hu
  exact (shipped_box hu).1

/-! ## Two spheres -/

theorem twins_assembly {P : PosData} (h : Twins P) : Assembly P {⟨negQ, swap01, -1⟩} where
  Nd := h.Nd
  image g hg := by
    obtain rfl := hg
    exact twins_image h
  gravity g hg k := by
    obtain rfl := hg
    rw [turnVec_point]
    ring
  only U hU := by
    have e0 := hU _ rfl 0 (by rw [h.Ns]; norm_num)
    simp only [turnVec_point, swap01, if_true] at e0
    have e : U 0 = U 1 := by
      funext k
      have := congrFun e0 k
      linarith
    intro i hi j hj
    rw [h.Ns] at hi hj
    have : (i = 0 ∨ i = 1) ∧ (j = 0 ∨ j = 1) := by omega
    rcases this with ⟨rfl | rfl, rfl | rfl⟩ <;> first | rfl | exact e | exact e.symm

theorem twins_equal {P : PosData} (h2 : Twins P) : EqualBeads P (P.sphereSize 0) := by
  intro x hx
  have : x = 0 ∨ x = 1 := by unfold beads at hx; rw [h2.Ns, h2.Nd] at hx; omega
  rcases this with rfl | rfl <;> simp [radius, h2.Ns, h2.size]

/-- **C92** (falling pair). Two equal spheres under gravity, with the strain of each sphere prescribed to be zero and a
table that dissipates: the program always writes its file, in every scheme, and in every frame the two spheres are apart
exactly as they were in the beginning. -/
theorem C92_falling (hD : TableDissipates W.table) (hW : Ships 1 .fte W) (hform : S.input_form = .fte) (h2 : Twins c.P)
    (hR : Runnable S c.P.Nd) (har : Arrows c) (ha : 1 / 10 ^ 8 < c.P.sphereSize 0)
    (hl : ∃ t ∈ W.table.lam, |t - 1| ≤ 1 / 10 ^ 8 + 1 / 10 ^ 5) (h0 : ¬ Touching c.P) {u : UserInput}
    (hu : W.input_ftsuoe c 0 0.1 Vel.blank none = some u) :
    (0 < S.num_frames → ∃ out, program W S (State.fresh c) = some (some out, none)) ∧
    ∀ k, ∃ s, runFrames W S u.bl u.tr (State.fresh c) k = some s ∧ s.error = false ∧ InStep c s.posdata :=
  C92_assembly hD hW hform (twins_assembly h2) (by rw [h2.Ns]; norm_num) hR har ha (twins_equal h2) hl h0 hu

/-- **C92** (falling pair, shipped table). The same with the table that is shipped with the program. -/
theorem C92_falling_shipped (hT : W.table = shippedTable) (hdrag : S.use_drag_Minfinity = false) (hW : Ships 1 .fte W)
    (hform : S.input_form = .fte) (h2 : Twins c.P) (hR : Runnable S c.P.Nd) (har : Arrows c)
    (ha : 1 / 10 ^ 8 < c.P.sphereSize 0) (h0 : ¬ Touching c.P) {u : UserInput}
    (hu : W.input_ftsuoe c 0 0.1 Vel.blank none = some u) :
    (0 < S.num_frames → ∃ out, program W S (State.fresh c) = some (some out, none)) ∧
    ∀ k, ∃ s, runFrames W S u.bl u.tr (State.fresh c) k = some s ∧ s.error = false ∧ InStep c s.posdata :=
  C92_assembly_shipped hT hdrag hW hform (twins_assembly h2) (by rw [h2.Ns]; norm_num) hR har ha (twins_equal h2) h0 hu

/-! ## A ring of spheres -/

/-- The reflection in a horizontal plane. -/
def mirrorZ : Fin 3 → Fin 3 → ℝ := ![![1, 0, 0], ![0, 1, 0], ![0, 0, -1]]

theorem mirrorZ_orth : Orthogonal mirrorZ := by
  intro i j
  fin_cases i <;> fin_cases j <;> simp [mirrorZ, Fin.sum_univ_three, dlt]

theorem mirrorZ_turn (v : Vec3) : turnVec mirrorZ v = ![v 0, v 1, -v 2] := by
  funext i
  fin_cases i <;> simp [turnVec, mirrorZ, Fin.sum_univ_three]

/-- The rotation about the vertical by the angle `-α`. -/
noncomputable def rotZ (α : ℝ) : Fin 3 → Fin 3 → ℝ :=
  ![![Real.cos α, Real.sin α, 0], ![-Real.sin α, Real.cos α, 0], ![0, 0, 1]]

theorem rotZ_orth (α : ℝ) : Orthogonal (rotZ α) := by
  have := Real.sin_sq_add_cos_sq α
  intro i j
  fin_cases i <;> fin_cases j <;> simp [rotZ, Fin.sum_univ_three, dlt] <;> nlinarith

theorem rotZ_turn (α : ℝ) (v : Vec3) :
    turnVec (rotZ α) v = ![Real.cos α * v 0 + Real.sin α * v 1, -Real.sin α * v 0 + Real.cos α * v 1, v 2] := by
  funext i
  fin_cases i <;> simp [turnVec, rotZ, Fin.sum_univ_three]

/-- Each of `n` particles is replaced by the next, and the last by the first. -/
def cycle (n : ℕ) : ℕ → ℕ := fun i => if i + 1 < n then i + 1 else if i + 1 = n then 0 else i

theorem cycle_reorders (n : ℕ) : Reorders n (cycle n) where
  lt i hi := by unfold cycle; split_ifs <;> omega
  inj i hi j hj h := by unfold cycle at h; split_ifs at h <;> omega
  rest i hi := by unfold cycle; split_ifs <;> omega

theorem cycle_angle {n i : ℕ} (hi : i < n) (θ : ℝ) (hθ : θ = 2 * Real.pi / n) :
    Real.cos (2 * Real.pi * (cycle n i : ℕ) / n) = Real.cos (2 * Real.pi * i / n + θ) ∧
    Real.sin (2 * Real.pi * (cycle n i : ℕ) / n) = Real.sin (2 * Real.pi * i / n + θ) := by
  have hn : (n : ℝ) ≠ 0 := by
    have : 0 < n := by omega
    positivity
  unfold cycle
  split_ifs with h1 h2
  · have : 2 * Real.pi * ((i + 1 : ℕ) : ℝ) / n = 2 * Real.pi * i / n + θ := by rw [hθ]; push_cast; ring
    rw [this]
    exact ⟨rfl, rfl⟩
  · have : 2 * Real.pi * (i : ℝ) / n + θ = 2 * Real.pi := by
      have e : (n : ℝ) = i + 1 := by rw [← h2]; push_cast; ring
      rw [hθ, ← add_div, div_eq_iff hn, e]
      ring
    rw [this]
    simp
  · omega

theorem ring_assembly {P : PosData} {o : Vec3} {r : ℝ} (h : Ring P o r) :
    Assembly P {⟨mirrorZ, fun i => i, -1⟩, ⟨rotZ (2 * Real.pi / P.Ns), cycle P.Ns, 1⟩} where
  Nd := h.Nd
  image g hg := by
    have hb : ∀ {x}, x < beads P → x < P.Ns := fun hx => by unfold beads at hx; rw [h.Nd] at hx; omega
    have hc : ∀ {x}, x < P.Ns → centre P x = P.spherePos x := fun hx => by
      funext k; unfold centre; rw [if_pos hx]
    have hm : ∀ {x σ}, x < P.Ns → beadMap P.Ns P.Nd σ (fun i => i) x = σ x := fun hx => by unfold beadMap; rw [if_pos hx]
    have hr : ∀ {x}, x < P.Ns → radius P x = P.sphereSize 0 := fun hx => by
      unfold radius; rw [if_pos hx]; exact h.size _ hx
    rcases hg with rfl | rfl
    · refine ⟨mirrorZ_orth, id_reorders _, id_reorders _, fun x hx y hy => ?_, fun x hx => ?_⟩
      · replace hx := hb hx
        replace hy := hb hy
        dsimp only
        rw [hm hx, hm hy, hc hx, hc hy, mirrorZ_turn, h.corner x hx, h.corner y hy]
        funext k
        fin_cases k <;> simp
      · dsimp only
        rw [hm (hb hx)]
    · have cy := cycle_reorders P.Ns
      refine ⟨rotZ_orth _, cy, id_reorders _, fun x hx y hy => ?_, fun x hx => ?_⟩
      · replace hx := hb hx
        replace hy := hb hy
        obtain ⟨c1, s1⟩ := cycle_angle hx _ rfl
        obtain ⟨c2, s2⟩ := cycle_angle hy _ rfl
        dsimp only
        rw [hm hx, hm hy, hc hx, hc hy, hc (cy.lt x hx), hc (cy.lt y hy), rotZ_turn, h.corner x hx, h.corner y hy,
          h.corner _ (cy.lt x hx), h.corner _ (cy.lt y hy), c1, c2, s1, s2]
        generalize 2 * Real.pi / (P.Ns : ℝ) = θ
        generalize 2 * Real.pi * (x : ℝ) / (P.Ns : ℝ) = α
        generalize 2 * Real.pi * (y : ℝ) / (P.Ns : ℝ) = β
        have q := Real.sin_sq_add_cos_sq θ
        have C : ∀ γ, Real.cos θ * Real.cos (γ + θ) + Real.sin θ * Real.sin (γ + θ) = Real.cos γ := by
          intro γ
          rw [Real.cos_add, Real.sin_add]
          linear_combination Real.cos γ * q
        have D : ∀ γ, -Real.sin θ * Real.cos (γ + θ) + Real.cos θ * Real.sin (γ + θ) = Real.sin γ := by
          intro γ
          rw [Real.cos_add, Real.sin_add]
          linear_combination Real.sin γ * q
        funext k
        fin_cases k
        · simp
          linear_combination r * C β - r * C α
        · simp
          linear_combination r * D β - r * D α
        · simp
      · dsimp only
        rw [hm (hb hx), hr (hb hx), hr (cy.lt x (hb hx))]
  gravity g hg k := by
    rcases hg with rfl | rfl
    · rw [mirrorZ_turn]
      fin_cases k <;> simp
    · rw [rotZ_turn]
      (fin_cases k <;> simp)
  only U hU := by
    have flat : ∀ i < P.Ns, U i 0 = 0 ∧ U i 1 = 0 := by
      intro i hi
      have e := hU _ (.inl rfl) i hi
      dsimp only at e
      rw [mirrorZ_turn] at e
      have e0 := congrFun e 0
      have e1 := congrFun e 1
      simp at e0 e1
      exact ⟨by linarith, by linarith⟩
    have all : ∀ i < P.Ns, U i 2 = U 0 2 := by
      intro i
      induction i with
      | zero => intro _; rfl
      | succ i ih =>
        intro hi
        have e := congrFun (hU _ (.inr rfl) i (by omega)) 2
        dsimp only at e
        rw [rotZ_turn, show cycle P.Ns i = i + 1 by unfold cycle; rw [if_pos hi]] at e
        simp at e
        rw [← e]
        exact ih (by omega)
    have eq : ∀ i < P.Ns, U i = U 0 := by
      intro i hi
      have h0 : 0 < P.Ns := by omega
      funext k
      fin_cases k
      · exact (flat i hi).1.trans (flat 0 h0).1.symm
      · exact (flat i hi).2.trans (flat 0 h0).2.symm
      · exact all i hi
    exact fun i hi j hj => (eq i hi).trans (eq j hj).symm

theorem ring_equal {P : PosData} {o : Vec3} {r : ℝ} (h : Ring P o r) : EqualBeads P (P.sphereSize 0) := by
  intro x hx
  have hx' : x < P.Ns := by unfold beads at hx; rw [h.Nd] at hx; omega
  unfold radius
  rw [if_pos hx']
  exact h.size x hx'

/-- **C92** (falling ring). Any number of equal spheres at the corners of a regular horizontal polygon, under gravity, with
the strain of each sphere prescribed to be zero and the table that is shipped with the program: the program always writes
its file, in every scheme, and in every frame the spheres form the polygon that they formed in the beginning. -/
theorem C92_ring {o : Vec3} {r : ℝ} (h : Ring c.P o r) (hT : W.table = shippedTable) (hdrag : S.use_drag_Minfinity = false)
    (hW : Ships 1 .fte W) (hform : S.input_form = .fte) (hR : Runnable S c.P.Nd) (har : Arrows c)
    (ha : 1 / 10 ^ 8 < c.P.sphereSize 0) (h0 : ¬ Touching c.P) {u : UserInput}
    (hu : W.input_ftsuoe c 0 0.1 Vel.blank none = some u) :
    (0 < S.num_frames → ∃ out, program W S (State.fresh c) = some (some out, none)) ∧
    ∀ k, ∃ s, runFrames W S u.bl u.tr (State.fresh c) k = some s ∧ s.error = false ∧ ∃ o', Ring s.posdata.P o' r := by
  obtain ⟨h1, h2⟩ := C92_assembly_shipped hT hdrag hW hform (ring_assembly h) h.Ns hR har ha (ring_equal h) h0 hu
  refine ⟨h1, fun k => ?_⟩
  obtain ⟨s, hs, he, hi⟩ := h2 k
  refine ⟨s, hs, he, fun k => s.posdata.P.spherePos 0 k - r * ![1, 0, 0] k, ⟨by rw [hi.sizes.Ns]; exact h.Ns,
    hi.sizes.Nd.trans h.Nd, fun i hi' => ?_, fun i hi' => ?_⟩⟩
  · rw [hi.sizes.spheres]
    exact h.size i (by rw [← hi.sizes.Ns]; exact hi')
  · rw [hi.sizes.Ns] at hi' ⊢
    funext k
    have e := hi.apart i hi' 0 h.Ns k
    rw [h.corner i hi', h.corner 0 h.Ns] at e
    fin_cases k <;> simp at e ⊢ <;> linarith

/-! ## The hypotheses can be met -/

/-- Two spheres one above the other, nearly touching, with the shipped table: any number of frames. -/
example (N : ℕ) (hN : 0 < N) :
    ∃ out, program (listedWorld 1 .fte) (formSettings .fte N) (State.fresh apartStart)
      = some (some out, none) := by
  have hR := formSettings_ok .fte N apartStart.P.Nd
  have hu : ∃ u, (listedWorld 1 .fte).input_ftsuoe apartStart 0 0.1 Vel.blank none = some u := by
    rw [listedWorld_ships, gravity_input]
    exact ⟨_, rfl⟩
  obtain ⟨u, hu⟩ := hu
  exact (C92_falling_shipped rfl rfl (listedWorld_ships 1 .fte) rfl ⟨rfl, rfl, rfl⟩
    ⟨hR.scheme, hR.extract, hR.cutoff, hR.every, hR.start, hR.first, hR.pos, hR.force, hR.temp⟩ apartStart_arrows
    (by norm_num [apartStart, apartP]) apartStart_apart hu).1 hN

/-- Four spheres at the corners of a horizontal square. -/
noncomputable def squareP : PosData where
  Ns := 4
  Nd := 0
  sphereSize := fun _ => 1
  spherePos := fun i => [![3, 0, 0], ![0, 3, 0], ![-3, 0, 0], ![0, -3, 0]].getD i 0
  dumbSize := fun _ => 1
  dumbPos := fun _ => 0
  dumbDx := fun _ => 0

theorem squareP_ring : Spec.Ring squareP 0 3 := by
  refine ⟨by simp [squareP], rfl, fun _ _ => rfl, fun i hi => ?_⟩
  have hi' : i < 4 := hi
  have e1 : 2 * Real.pi / 4 = Real.pi / 2 := by ring
  have e2 : 2 * Real.pi * 2 / 4 = Real.pi := by ring
  have e3 : 2 * Real.pi * 3 / 4 = Real.pi / 2 + Real.pi := by ring
  funext k
  interval_cases i <;> fin_cases k <;> simp [squareP, e1, e2, e3, Real.cos_add_pi, Real.sin_add_pi]

noncomputable def squareStart : Config := ⟨squareP, defaultRots squareP.spherePos squareP.sphereSize⟩

theorem squareStart_arrows : Arrows squareStart := by
  intro i _ j h
  by_cases hj : j = 0
  · have := congrFun h 0
    simp [squareStart, defaultRots, hj, squareP] at this
  · have := congrFun h 2
    simp [squareStart, defaultRots, hj, squareP] at this

theorem squareStart_apart : ¬ Touching squareStart.P := by
  rintro ⟨x, hx, y, hy, hxy, hl⟩
  have hx' : x < 4 := hx
  have hy' : y < 4 := hy
  have rx : radius squareStart.P x = 1 := ring_equal squareP_ring x hx
  have ry : radius squareStart.P y = 1 := ring_equal squareP_ring y hy
  rw [rx, ry] at hl
  have : (4 : ℝ) ≤ len fun k => centre squareP x k - centre squareP y k := by
    unfold len
    apply Real.le_sqrt_of_sq_le
    rw [Fin.sum_univ_three]
    interval_cases x <;> interval_cases y <;> first
      | exact absurd rfl hxy
      | (simp [centre, squareP] <;> norm_num)
  have hl : (len fun k => centre squareP x k - centre squareP y k) < _ := hl
  norm_num at hl
  linarith

/-- The square falls with the shipped table, any number of frames. -/
example (N : ℕ) (hN : 0 < N) : ∃ u, (listedWorld 1 .fte).input_ftsuoe squareStart 0 0.1 Vel.blank none = some u ∧
    (∃ out, program (listedWorld 1 .fte) (formSettings .fte N) (State.fresh squareStart) = some (some out, none)) ∧
    ∀ k, ∃ s, runFrames (listedWorld 1 .fte) (formSettings .fte N) u.bl u.tr (State.fresh squareStart) k = some s ∧
      s.error = false ∧ ∃ o', Spec.Ring s.posdata.P o' 3 := by
  have hR := formSettings_ok .fte N squareStart.P.Nd
  have hu : ∃ u, (listedWorld 1 .fte).input_ftsuoe squareStart 0 0.1 Vel.blank none = some u := by
    rw [listedWorld_ships, gravity_input]
    exact ⟨_, rfl⟩
  obtain ⟨u, hu⟩ := hu
  obtain ⟨h1, h2⟩ := C92_ring (c := squareStart) squareP_ring rfl rfl (listedWorld_ships 1 .fte) (S := formSettings .fte N) rfl
    ⟨hR.scheme, hR.extract, hR.cutoff, hR.every, hR.start, hR.first, hR.pos, hR.force, hR.temp⟩ squareStart_arrows
    (by norm_num [squareStart, squareP]) squareStart_apart hu
  exact ⟨u, hu, h1 hN, h2⟩

end SD
