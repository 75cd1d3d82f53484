import Verif.Lemmas.ListedForces
import Verif.Props.InputSymmetry

/-!
# C69: what the project's own inputs do

The loads of each listed input, bead by bead; and what a whole run does with the shear flow of input 7 when stresslets
are prescribed.
-/

set_option autoImplicit false

namespace SD

open Spec Ship

variable {form : InputForm} {P : PosData} {f dt : ℝ} {u : UserInput} {W : World} {S : Settings} {bl tr : Vec3}

/-! ## Loads -/

/-- **C69** (gravity). Inputs 1 and 2 give every sphere the weight one downwards and dumbbells none. -/
theorem C69_weight {n : ℕ} (hn : n = 1 ∨ n = 2) (hform : form = .fts ∨ form = .fte)
    (h : input_ftsuoe n form P f dt = some u) : Carries P u.inp (weight P) := by
  obtain ⟨-, d2, d3, d4⟩ := default_none (P := P) hform
  have hw : ∀ i, ¬ i < P.Ns → weight P i = 0 := fun i hi => if_neg hi
  rcases shipped_cases h with ⟨-, e⟩ | ⟨rfl, -⟩ | ⟨rfl, -⟩ | ⟨rfl, -⟩ | ⟨rfl, -⟩ | ⟨rfl, -⟩
  · rw [e]
    refine ⟨?_, d2, d3.trans ?_, d4.trans ?_⟩
    · refine (rep_range _ _).trans (List.map_congr_left fun i hi => ?_)
      unfold weight
      rw [if_pos (List.mem_range.mp hi)]
      rfl
    · refine List.map_congr_left fun i _ => ?_
      rw [hw _ (by omega), hw _ (by omega)]
      exact congrArg num3 (funext fun k => by simp)
    · refine List.map_congr_left fun i _ => ?_
      rw [hw _ (by omega), hw _ (by omega)]
      exact congrArg num3 (funext fun k => by simp)
  all_goals omega

/-- **C69** (springs). Input 3 joins the beads of every dumbbell by a spring of constant one half and length two: the
two forces are opposite, and they vanish only at that length. -/
theorem C69_spring (hform : form = .fts ∨ form = .fte) (h : input_ftsuoe 3 form P f dt = some u) :
    Carries P u.inp (hooke P) ∧ ∀ i < P.Nd,
      (∀ k, hooke P (P.Ns + i) k + hooke P (P.Ns + P.Nd + i) k = 0) ∧
      dotp (hooke P (P.Ns + i)) (P.dumbDx i) = 1 / 2 * (len (P.dumbDx i) - 2) * len (P.dumbDx i) ∧
      (hooke P (P.Ns + i) = 0 ↔ len (P.dumbDx i) = 2) := by
  obtain ⟨d1, d2, d3, -⟩ := default_none (P := P) hform
  rcases shipped_cases h with ⟨h, -⟩ | ⟨-, hne, g, e⟩ | ⟨h, -⟩ | ⟨h, -⟩ | ⟨h, -⟩ | ⟨h, -⟩
  · omega
  · have hl : ∀ i < P.Nd, len (P.dumbDx i) ≠ 0 := fun i hi => by rw [← norm3_eq_len]; exact hne i hi
    refine ⟨?_, fun i hi => ?_⟩
    · rw [e]
      refine ⟨d1.trans ?_, d2, d3.trans ?_, ?_⟩
      · refine List.map_congr_left fun i hi => congrArg num3 ?_
        unfold hooke
        rw [if_pos (List.mem_range.mp hi)]
      · refine List.map_congr_left fun i hi => congrArg num3 (funext fun k => ?_)
        rw [hooke_first (List.mem_range.mp hi), hooke_second (List.mem_range.mp hi)]
        simp
      · refine List.map_congr_left fun i hi => congrArg num3 (funext fun k => ?_)
        have := hl i (List.mem_range.mp hi)
        rw [hooke_first (List.mem_range.mp hi), hooke_second (List.mem_range.mp hi)]
        unfold springForce
        rw [norm3_eq_len]
        field_simp
        ring
    · have h0 := hl i hi
      have hsq : dotp (P.dumbDx i) (P.dumbDx i) = len (P.dumbDx i) ^ 2 := by
        unfold len dotp
        rw [Real.sq_sqrt (Finset.sum_nonneg fun k _ => sq_nonneg _), Fin.sum_univ_three]
        ring
      have hd : dotp (hooke P (P.Ns + i)) (P.dumbDx i) = 1 / 2 * (len (P.dumbDx i) - 2) * len (P.dumbDx i) := by
        have : dotp (hooke P (P.Ns + i)) (P.dumbDx i)
            = 1 / 2 * (len (P.dumbDx i) - 2) / len (P.dumbDx i) * dotp (P.dumbDx i) (P.dumbDx i) := by
          rw [hooke_first hi]
          unfold dotp
          ring
        rw [this, hsq]
        field_simp
      refine ⟨fun k => ?_, hd, fun h => ?_, fun h => ?_⟩
      · rw [hooke_first hi, hooke_second hi]; ring
      · rw [h] at hd
        have hz : dotp (0 : Vec3) (P.dumbDx i) = 0 := by simp [dotp]
        rw [hz] at hd
        have : len (P.dumbDx i) - 2 = 0 := by
          by_contra hc
          exact mul_ne_zero (mul_ne_zero (by norm_num) hc) h0 hd.symm
        linarith
      · rw [hooke_first hi, h]
        funext k
        simp
  all_goals omega

/-- **C69** (repulsion). Input 4 pushes every bead away from all close beads with strength 50 and decay rate 20. -/
theorem C69_repulsion (hform : form = .fts ∨ form = .fte) (h : input_ftsuoe 4 form P f dt = some u) :
    Carries P u.inp (pushTotal 50 20 P) := by
  obtain ⟨-, d2, -, -⟩ := default_none (P := P) hform
  rw [repulsion_input h]
  exact ⟨rfl, d2, rfl, rfl⟩

/-- **C69** (no load). Inputs 5 and 7 load no bead. -/
theorem C69_none {n : ℕ} (hn : n = 5 ∨ n = 7) (hform : form = .fts ∨ form = .fte)
    (h : input_ftsuoe n form P f dt = some u) : Carries P u.inp 0 := by
  obtain ⟨d1, d2, d3, d4⟩ := default_none (P := P) hform
  have a : ∀ m : ℕ, (List.range m).map (fun _ => num3 0) = (List.range m).map fun i => num3 fun k =>
      (0 : ℕ → Vec3) (P.Ns + i) k + (0 : ℕ → Vec3) (P.Ns + P.Nd + i) k := fun m =>
    List.map_congr_left fun i _ => congrArg num3 (funext fun k => by simp)
  have b : ∀ m : ℕ, (List.range m).map (fun _ => num3 0) = (List.range m).map fun i => num3 fun k =>
      (0 : ℕ → Vec3) (P.Ns + P.Nd + i) k - (0 : ℕ → Vec3) (P.Ns + i) k := fun m =>
    List.map_congr_left fun i _ => congrArg num3 (funext fun k => by simp)
  rcases shipped_cases h with ⟨h, -⟩ | ⟨h, -⟩ | ⟨h, -⟩ | ⟨-, e⟩ | ⟨h, -⟩ | ⟨-, e⟩
  · omega
  · omega
  · omega
  · rw [e]; exact ⟨d1, d2, d3.trans (a _), d4.trans (b _)⟩
  · omega
  · rw [e]; exact ⟨d1, d2, d3.trans (a _), d4.trans (b _)⟩

/-! ## The shear flow with prescribed stresslets -/

/-- **C69** (shear). With spheres and prescribed stresslets, the shear flow of input 7 carries every sphere and every
bead like a rigid rotation: the strain asked for is not used. -/
theorem C69_shear_turns (hW : Ships 7 .fts W) (hform : S.input_form = .fts) {c : Config} (hN : 0 < c.P.Ns)
    {last : NDMat} {reg : Bool} {lv : Vel} {st : Stage} (h : generate_output_FTSUOE W S c f last reg lv = some st) :
    st.out.Ea.headD 0 = 0 ∧ ∀ i x, sphereVel st i x = swirl x ∧ ∀ sg : ℝ, beadVel st 0 sg i x = swirl x := by
  obtain ⟨a1, a2, a3, a4, -, eU, eO, ec⟩ := shear_stage hW hform h
  refine ⟨?_, fun i x => ⟨?_, fun sg => ?_⟩⟩
  · have := a2 hN 0
    cases hE : st.out.Ea with
    | nil => rfl
    | cons m l => rw [hE] at this; exact this
  · unfold sphereVel
    rw [a1, a2 hN, eU, eO, ec]
    funext k
    fin_cases k <;> simp [affineFlow, swirl, cross, app, dotp] <;> ring
  · unfold beadVel
    rw [a3, a4, eU, eO, ec]
    funext k
    fin_cases k <;> simp [affineFlow, swirl, cross, app, dotp] <;> ring

/-- Without spheres the strain is used and the beads are carried by the shear flow. -/
theorem shear_carries (hW : Ships 7 .fts W) (hform : S.input_form = .fts) {c : Config} (hN : c.P.Ns = 0)
    {last : NDMat} {reg : Bool} {lv : Vel} {st : Stage} (h : generate_output_FTSUOE W S c f last reg lv = some st) :
    st.out.Ea.headD 0 = ![![0, 0, 0.5 * 1], ![0, 0, 0], ![0.5 * 1, 0, 0]] ∧
      ∀ i x (sg : ℝ), beadVel st ![![0, 0, 0.5 * 1], ![0, 0, 0], ![0.5 * 1, 0, 0]] sg i x = ![x 2, 0, 0] := by
  obtain ⟨-, -, a3, a4, a5, eU, eO, ec⟩ := shear_stage hW hform h
  refine ⟨a5 hN, fun i x sg => ?_⟩
  unfold beadVel
  rw [a3, a4, eU, eO, ec]
  funext k
  fin_cases k <;> simp [affineFlow, cross, app, dotp] <;> ring

/-- Where the beads are carried by a steady flow, a frame is an Euler step along it, with Runge-Kutta as well. -/
theorem beads_frame {fr : ℕ} {s s' : State} {E : Mat3} {A : Vec3 → Vec3} (hsch : S.scheme = .euler ∨ S.scheme = .rk4)
    (hbox : ∀ k, bl k - tr k = 0) (he : s.error = false) (hf : generate_frame W S bl tr fr s = some s')
    (hA : ∀ (c : Config) (t : ℝ) C reg lv st, c.P.Ns = s.posdata.P.Ns →
      generate_output_FTSUOE W S c t C reg lv = some st →
      st.out.Ea.headD 0 = E ∧ ∀ i x (sg : ℝ), beadVel st E sg i x = A x)
    {i : ℕ} (hi : i < s.posdata.P.Nd) {sg : ℝ} (hsg : sg = -1 ∨ sg = 1) :
    beadPos s'.posdata.P sg i = fun k => beadPos s.posdata.P sg i k + S.timestep * A (beadPos s.posdata.P sg i) k := by
  funext k
  rcases hsch with h | h
  · obtain ⟨st, h1, h2⟩ := C27_euler_dumbbells h hbox he hf
    obtain ⟨e1, e2⟩ := hA _ _ _ _ _ _ rfl h1
    rw [h2 i hi sg hsg k, e1, e2]
  · obtain ⟨st, c1, c2, c3, h0, h1, h2, h3, ⟨z1, z2, z3⟩, hb⟩ := C27_rk4_dumbbells h hbox he hf
    obtain ⟨e0, g0⟩ := hA _ _ _ _ _ _ rfl h0
    obtain ⟨-, g1⟩ := hA _ _ _ _ _ _ z1 h1
    obtain ⟨e2, g2⟩ := hA _ _ _ _ _ _ z2 h2
    obtain ⟨e3, g3⟩ := hA _ _ _ _ _ _ z3 h3
    have := (hb i hi sg hsg k).2.2.2
    rw [e0, e2, e3, g0, g1, g2, g3] at this
    rw [this]
    ring

theorem spheres_frame {fr : ℕ} {s s' : State} {A : Vec3 → Vec3} (hsch : S.scheme = .euler ∨ S.scheme = .rk4)
    (h2d : S.fully_2d_problem = false) (hbox : ∀ k, bl k - tr k = 0) (he : s.error = false)
    (hf : generate_frame W S bl tr fr s = some s')
    (hA : ∀ (c : Config) (t : ℝ) C reg lv st, c.P.Ns = s.posdata.P.Ns →
      generate_output_FTSUOE W S c t C reg lv = some st → ∀ i x, sphereVel st i x = A x)
    {i : ℕ} (hi : i < s.posdata.P.Ns) :
    s'.posdata.P.spherePos i = fun k => s.posdata.P.spherePos i k + S.timestep * A (s.posdata.P.spherePos i) k := by
  rcases hsch with h | h
  · obtain ⟨st, h1, h2⟩ := C27_euler (.inl h) h2d he hf
    rw [(h2 i hi).1 hbox, hA _ _ _ _ _ _ rfl h1]
  · funext k
    exact C27_rk4_steady_flow (A := fun _ => A) h h2d hbox he hf
      (fun c t C reg lv st hN hs i _ x => hA c t C reg lv st hN hs i x) i hi k

theorem frame_sizes {fr : ℕ} {s s' : State} (he : s.error = false) (hf : generate_frame W S bl tr fr s = some s') :
    s'.posdata.P.Ns = s.posdata.P.Ns ∧ s'.posdata.P.Nd = s.posdata.P.Nd := by
  obtain ⟨-, r, h1, h2, -⟩ := frame_some he hf
  have := timeStep_sizes h1
  rw [h2]
  exact ⟨this.1, this.2.1⟩

theorem run_noerror {s1 s2 : State} {fr : ℕ} (_ : s2.error = false) (h : generate_frame W S bl tr fr s1 = some s2) :
    s1.error = false := by
  by_contra hc
  rw [frame_error (by simpa using hc)] at h
  obtain rfl := Option.some.inj h
  exact hc ‹_›

theorem swirled_offAxis (dt : ℝ) (x y : Vec3) (j : ℕ) :
    offAxis (fun k => (swirled dt)^[j] x k - (swirled dt)^[j] y k)
      = (1 + dt ^ 2 / 4) ^ j * offAxis fun k => x k - y k := by
  induction j with
  | zero => simp
  | succ j ih =>
    rw [Function.iterate_succ_apply', Function.iterate_succ_apply', pow_succ, mul_right_comm, ← ih]
    simp only [offAxis, swirled, swirl, Matrix.cons_val_zero, Matrix.cons_val]
    ring

theorem swirled_along (dt : ℝ) (x : Vec3) (j : ℕ) : (swirled dt)^[j] x 1 = x 1 := by
  induction j with
  | zero => rfl
  | succ j ih =>
    rw [Function.iterate_succ_apply']
    simp [swirled, swirl, ih]

/-- **C69** (whole runs). In the shear flow of input 7 with prescribed stresslets, a suspension with at least one
sphere never deforms: after `j` error-free frames all spheres and beads have made `j` explicit steps along a rigid rotation,
which turn the suspension as a whole and enlarge it in the plane of the flow by `1 + dt² / 4` per frame (for squared
lengths). -/
theorem C69_spiral (hW : Ships 7 .fts W) (hform : S.input_form = .fts)
    (hsch : S.scheme = .euler ∨ S.scheme = .rk4) (h2d : S.fully_2d_problem = false) (hbox : ∀ k, bl k - tr k = 0)
    {s0 s : State} (hN : 0 < s0.posdata.P.Ns) {j : ℕ} (h : runFrames W S bl tr s0 j = some s) (he : s.error = false) :
    let step := (swirled S.timestep)^[j]
    (∀ i < s0.posdata.P.Ns, s.posdata.P.spherePos i = step (s0.posdata.P.spherePos i)) ∧
    (∀ i < s0.posdata.P.Nd, ∀ sg : ℝ, sg = -1 ∨ sg = 1 →
      beadPos s.posdata.P sg i = step (beadPos s0.posdata.P sg i)) ∧
    ∀ x y, step x 1 = x 1 ∧
      offAxis (fun k => step x k - step y k) = (1 + S.timestep ^ 2 / 4) ^ j * offAxis fun k => x k - y k := by
  have key : s.posdata.P.Ns = s0.posdata.P.Ns ∧ s.posdata.P.Nd = s0.posdata.P.Nd ∧
      (∀ i < s0.posdata.P.Ns, s.posdata.P.spherePos i = (swirled S.timestep)^[j] (s0.posdata.P.spherePos i)) ∧
      ∀ i < s0.posdata.P.Nd, ∀ sg : ℝ, sg = -1 ∨ sg = 1 →
        beadPos s.posdata.P sg i = (swirled S.timestep)^[j] (beadPos s0.posdata.P sg i) := by
    induction j generalizing s with
    | zero =>
      obtain rfl := Option.some.inj h
      exact ⟨rfl, rfl, fun _ _ => rfl, fun _ _ _ _ => rfl⟩
    | succ j ih =>
      obtain ⟨s1, h1, h2⟩ := run_prev h
      have he1 := run_noerror he h2
      obtain ⟨i1, i2, i3, i4⟩ := ih h1 he1
      obtain ⟨z1, z2⟩ := frame_sizes he1 h2
      refine ⟨z1.trans i1, z2.trans i2, fun i hi => ?_, fun i hi sg hsg => ?_⟩
      · rw [spheres_frame hsch h2d hbox he1 h2 (fun c t C reg lv st hc hs i x =>
          ((C69_shear_turns hW hform (by omega) hs).2 i x).1) (i := i) (by omega), Function.iterate_succ_apply', i3 i hi]
        rfl
      · rw [beads_frame hsch hbox he1 h2 (fun c t C reg lv st hc hs =>
          ⟨(C69_shear_turns hW hform (by omega) hs).1, fun i x sg =>
            ((C69_shear_turns hW hform (by omega) hs).2 i x).2 sg⟩) (i := i) (by omega) hsg,
          Function.iterate_succ_apply', i4 i hi sg hsg]
        rfl
  exact ⟨key.2.2.1, key.2.2.2, fun x y => ⟨swirled_along _ _ _, swirled_offAxis _ _ _ _⟩⟩

/-! ### Such a run never ends early -/

/-- The beads of `d` are those of `c` after a map that brings no two points closer. -/
def Spread (c d : Config) : Prop :=
  SameSizes c d ∧ ∃ g : Vec3 → Vec3, (∀ x < beads c.P, centre d.P x = g (centre c.P x)) ∧
    ∀ x y, len (fun k => x k - y k) ≤ len fun k => g x k - g y k

theorem Spread.refl (c : Config) : Spread c c := ⟨⟨rfl, rfl, rfl, rfl⟩, id, fun _ _ => rfl, fun _ _ => le_rfl⟩

theorem Spread.trans {c d e : Config} (h1 : Spread c d) (h2 : Spread d e) : Spread c e := by
  obtain ⟨a1, g1, b1, l1⟩ := h1
  obtain ⟨a2, g2, b2, l2⟩ := h2
  refine ⟨⟨a2.Ns.trans a1.Ns, a2.Nd.trans a1.Nd, a2.spheres.trans a1.spheres, a2.dumbs.trans a1.dumbs⟩,
    g2 ∘ g1, fun x hx => ?_, fun x y => (l1 x y).trans (l2 _ _)⟩
  rw [b2 x (by unfold beads at hx ⊢; rw [a1.Ns, a1.Nd]; exact hx), b1 x hx]
  rfl

theorem Spread.apart {c d : Config} (h : Spread c d) (h0 : ¬ Touching c.P) : ¬ Touching d.P := by
  obtain ⟨a, g, b, l⟩ := h
  have hb : beads d.P = beads c.P := by unfold beads; rw [a.Ns, a.Nd]
  have hr : ∀ x, radius d.P x = radius c.P x := fun x => by
    unfold radius; rw [a.Ns, a.Nd, a.spheres, a.dumbs]
  rintro ⟨x, hx, y, hy, hxy, h⟩
  rw [hb] at hx hy
  rw [b x hx, b y hy, hr, hr] at h
  exact h0 ⟨x, hx, y, hy, hxy, (l _ _).trans_lt h⟩

theorem swirled_spreads (τ : ℝ) (x y : Vec3) :
    len (fun k => x k - y k) ≤ len fun k => swirled τ x k - swirled τ y k := by
  unfold len
  apply Real.sqrt_le_sqrt
  have h : ∑ k, (swirled τ x k - swirled τ y k) ^ 2
      = ∑ k, (x k - y k) ^ 2 + τ ^ 2 / 4 * ((x 0 - y 0) ^ 2 + (x 2 - y 2) ^ 2) := by
    simp only [Fin.sum_univ_three, swirled, swirl, Matrix.cons_val_zero, Matrix.cons_val_one, Matrix.cons_val]
    ring
  rw [h]
  have := mul_nonneg (by positivity : (0 : ℝ) ≤ τ ^ 2 / 4) (by positivity : (0 : ℝ) ≤ (x 0 - y 0) ^ 2 + (x 2 - y 2) ^ 2)
  linarith

/-- Enough to know the spheres and the beads of the dumbbells. -/
theorem spread_of {c d : Config} (a : SameSizes c d) (τ : ℝ)
    (hs : ∀ i < c.P.Ns, d.P.spherePos i = swirled τ (c.P.spherePos i))
    (hd : ∀ i < c.P.Nd, ∀ sg : ℝ, sg = -1 ∨ sg = 1 → beadPos d.P sg i = swirled τ (beadPos c.P sg i)) :
    Spread c d := by
  have e1 : ∀ (Q : PosData) i, (fun k => Q.dumbPos i k - Q.dumbDx i k / 2) = beadPos Q (-1) i := fun Q i => by
    funext k; unfold beadPos; ring
  have e2 : ∀ (Q : PosData) i, (fun k => Q.dumbPos i k + Q.dumbDx i k / 2) = beadPos Q 1 i := fun Q i => by
    funext k; unfold beadPos; ring
  have f1 : ∀ (Q : PosData) {i}, i < Q.Ns → centre Q i = Q.spherePos i := fun Q i hi => by
    funext k; unfold centre; rw [if_pos hi]
  refine ⟨a, swirled τ, fun x hx => ?_, swirled_spreads τ⟩
  unfold beads at hx
  by_cases h1 : x < c.P.Ns
  · rw [f1 _ h1, f1 _ (by rw [a.Ns]; exact h1), hs x h1]
  by_cases h2 : x < c.P.Ns + c.P.Nd
  · obtain ⟨i, rfl⟩ : ∃ i, x = c.P.Ns + i := ⟨x - c.P.Ns, by omega⟩
    rw [centre_first (by omega), e1]
    conv_lhs => rw [← a.Ns]
    rw [centre_first (by rw [a.Nd]; omega), e1]
    exact hd i (by omega) _ (.inl rfl)
  · obtain ⟨i, rfl⟩ : ∃ i, x = c.P.Ns + c.P.Nd + i := ⟨x - (c.P.Ns + c.P.Nd), by omega⟩
    rw [centre_second, e2]
    conv_lhs => rw [← a.Ns, ← a.Nd]
    rw [centre_second, e2]
    exact hd i (by omega) _ (.inr rfl)

theorem move_spread (hbox : ∀ k, bl k - tr k = 0) {c : Config} {st : Stage} {v : Vel} {τ : ℝ} {e : Bool}
    {p : Config × Bool} {Ed : List Mat3} (hv : stageVel c st Ed = some v) (h : rk4Move S bl tr c st v τ e = some p)
    (hE : Ed.headD 0 = 0) (hA : ∀ i x, sphereVel st i x = swirl x ∧ ∀ sg : ℝ, beadVel st 0 sg i x = swirl x) :
    Spread c p.1 := by
  have hnp : ¬ isPeriodic bl tr := by unfold isPeriodic; exact not_not.mpr hbox
  have hp : MoveParts S bl tr c st v τ e p.1 p.2 := move_parts h
  refine spread_of ⟨hp.sizes.1, hp.sizes.2.1, hp.sizes.2.2.1, hp.sizes.2.2.2⟩ τ (fun i hi => ?_) fun i hi sg hsg => ?_
  · have m := (hp.spheres (by omega)).1
    rw [wrapIf_nonperiodic hnp] at m
    rw [m]
    unfold euler_timestep
    rw [(stageVel_spheres hv hi).1, (hA _ _).1]
    rfl
  · obtain ⟨d, -, m⟩ := hp.dumbs (by omega)
    rw [wrapIf_nonperiodic hnp] at m
    have w := (stageVel_beads hv (by omega) i).2 sg hsg
    rw [hE, (hA _ _).2] at w
    funext k
    show _ = beadPos c.P sg i k + τ * swirl (beadPos c.P sg i) k
    rw [← w k]
    unfold beadPos
    rw [d, m]
    unfold euler_timestep
    ring

theorem inner_spread (hW : Ships 7 .fts W) (hform : S.input_form = .fts) (hbox : ∀ k, bl k - tr k = 0) {c d : Config}
    (hN : 0 < c.P.Ns) {fr : ℕ} {lv : Vel} {last : NDMat} {reg : Bool} (h : Inner W S bl tr fr c lv last reg d) :
    Spread c d := by
  obtain ⟨st1, v1, p1, a1, b1, m1, h⟩ := h
  have t1 := C69_shear_turns hW hform hN a1
  have q1 := move_spread hbox b1 m1 t1.1 t1.2
  rcases h with rfl | ⟨st2, v2, p2, a2, b2, m2, h⟩
  · exact q1
  have t2 := C69_shear_turns hW hform (by rw [q1.1.Ns]; exact hN) a2
  have q2 := move_spread hbox b2 m2 t1.1 t2.2
  rcases h with rfl | ⟨st3, v3, p3, a3, b3, m3, rfl⟩
  · exact q2
  have t3 := C69_shear_turns hW hform (by rw [q2.1.Ns]; exact hN) a3
  exact move_spread hbox b3 m3 t3.1 t3.2

theorem run_spread (hW : Ships 7 .fts W) (hform : S.input_form = .fts)
    (hsch : S.scheme = .euler ∨ S.scheme = .rk4) (h2d : S.fully_2d_problem = false) (hbox : ∀ k, bl k - tr k = 0)
    {s0 s : State} (hN : 0 < s0.posdata.P.Ns) {j : ℕ} (h : runFrames W S bl tr s0 j = some s) (he : s.error = false) :
    Spread s0.posdata s.posdata := by
  induction j generalizing s with
  | zero =>
    obtain rfl := Option.some.inj h
    exact Spread.refl _
  | succ j ih =>
    obtain ⟨s1, h1, h2⟩ := run_prev h
    have he1 := run_noerror he h2
    have i1 := ih h1 he1
    have hN1 : 0 < s1.posdata.P.Ns := by rw [i1.1.Ns]; exact hN
    obtain ⟨-, r, g1, g2, -⟩ := frame_some he1 h2
    have hz := timeStep_sizes g1
    rw [← g2] at hz
    refine i1.trans (spread_of ⟨hz.1, hz.2.1, hz.2.2.1, hz.2.2.2⟩ S.timestep (fun i hi => ?_) fun i hi sg hsg => ?_)
    · exact spheres_frame hsch h2d hbox he1 h2 (fun c t C reg lv st hc hs i x =>
        ((C69_shear_turns hW hform (by omega) hs).2 i x).1) hi
    · exact beads_frame hsch hbox he1 h2 (fun c t C reg lv st hc hs =>
        ⟨(C69_shear_turns hW hform (by omega) hs).1, fun i x sg =>
          ((C69_shear_turns hW hform (by omega) hs).2 i x).2 sg⟩) hi hsg

/-- A suspension with spheres in the flow of input 7 that starts without touching beads has none in any frame. -/
theorem never_touching (hW : Ships 7 .fts W) (hform : S.input_form = .fts) {c : Config}
    (hsch : S.scheme = .euler ∨ S.scheme = .rk4) (h2d : S.fully_2d_problem = false) (hN : 0 < c.P.Ns)
    (h0 : ¬ Touching c.P) {u : UserInput} (hu : W.input_ftsuoe c 0 0.1 Vel.blank none = some u) {j : ℕ} {s : State}
    (hs : runFrames W S u.bl u.tr (State.fresh c) j = some s) (he : s.error = false) {d : Config}
    (hv : Visits W S u.bl u.tr j s d) : ¬ Touching d.P := by
  intro ht
  rw [hW, shear_input] at hu
  have hbox : ∀ k, u.bl k - u.tr k = 0 := fun k => by
    rw [← Option.some.inj hu]; exact sub_self _
  have q := run_spread hW hform hsch h2d hbox (s0 := State.fresh c) hN hs he
  rcases hv with rfl | ⟨-, hv⟩
  · exact q.apart h0 ht
  · have hN1 : 0 < s.posdata.P.Ns := by rw [q.1.Ns]; exact hN
    exact (q.trans (inner_spread hW hform hbox hN1 hv)).apart h0 ht

/-- A suspension with spheres in the flow of input 7 that could stop only by touching does not stop. -/
theorem endless_of (hW : Ships 7 .fts W) (hform : S.input_form = .fts) {c : Config}
    (hsch : S.scheme = .euler ∨ S.scheme = .rk4) (h2d : S.fully_2d_problem = false) (hN : 0 < c.P.Ns)
    (h0 : ¬ Touching c.P)
    (h : program W S (State.fresh c) = none → ∃ u, W.input_ftsuoe c 0 0.1 Vel.blank none = some u ∧
      ∃ j < S.num_frames, ∃ s, runFrames W S u.bl u.tr (State.fresh c) j = some s ∧ s.error = false ∧
        ∃ d, Visits W S u.bl u.tr j s d ∧ SameSizes c d ∧ Touching d.P) :
    ∃ out, program W S (State.fresh c) = some out := by
  rcases hp : program W S (State.fresh c) with _ | out
  · obtain ⟨u, hu, j, -, s, hs, he, d, hv, -, ht⟩ := h hp
    exact absurd ht (never_touching hW hform hsch h2d hN h0 hu hs he hv)
  · exact ⟨out, rfl⟩

/-- **C69** (never touching). Because it only turns and grows, a suspension with spheres that starts without touching
beads is simulated to the end in the shear flow of input 7 with prescribed stresslets, however many frames are asked
for. -/
theorem C69_endless (hD : TableDissipates W.table) (hW : Ships 7 .fts W) (hform : S.input_form = .fts) {c : Config}
    (hR : Runnable S c.P.Nd) (hsch : S.scheme = .euler ∨ S.scheme = .rk4) (h2d : S.fully_2d_problem = false)
    (ha : Arrows c) (hk : 0 < S.num_frames) (hr : ∀ x < beads c.P, 1 / 10 ^ 8 < radius c.P x)
    (hl : ∀ x < beads c.P, ∀ y < beads c.P, ∃ t ∈ W.table.lam,
      |t - radius c.P y / radius c.P x| ≤ 1 / 10 ^ 8 + 1 / 10 ^ 5 * |radius c.P y / radius c.P x|)
    (hb : S.bead_bead_interactions = true ∨ c.P.Nd = 0) (hN : 0 < c.P.Ns) (h0 : ¬ Touching c.P) :
    ∃ out, program W S (State.fresh c) = some out :=
  endless_of hW hform hsch h2d hN h0 fun h => C66_runs hD hW hform hR ha hk hr hl
    ⟨by omega, by simp⟩ hb (by omega) (by omega) (by omega)
    (show 1 ≤ 7 ∧ 7 ≤ 7 ∧ _ from ⟨by omega, by omega, by omega⟩) h0 h

/-- **C69** (dumbbells only). Without spheres the same input shears the suspension: after `j` error-free frames every bead
is exactly where the flow `(z, 0, 0)` takes it in the time `j dt`. -/
theorem C69_shear_dumbbells (hW : Ships 7 .fts W) (hform : S.input_form = .fts)
    (hsch : S.scheme = .euler ∨ S.scheme = .rk4) (hbox : ∀ k, bl k - tr k = 0)
    {s0 s : State} (hN : s0.posdata.P.Ns = 0) {j : ℕ} (h : runFrames W S bl tr s0 j = some s) (he : s.error = false)
    {i : ℕ} (hi : i < s0.posdata.P.Nd) {sg : ℝ} (hsg : sg = -1 ∨ sg = 1) :
    beadPos s.posdata.P sg i = sheared (j * S.timestep) (beadPos s0.posdata.P sg i) := by
  have key : s.posdata.P.Ns = 0 ∧ s.posdata.P.Nd = s0.posdata.P.Nd ∧
      beadPos s.posdata.P sg i = sheared (j * S.timestep) (beadPos s0.posdata.P sg i) := by
    induction j generalizing s with
    | zero =>
      obtain rfl := Option.some.inj h
      refine ⟨hN, rfl, ?_⟩
      funext k
      fin_cases k <;> simp [sheared]
    | succ j ih =>
      obtain ⟨s1, h1, h2⟩ := run_prev h
      have he1 := run_noerror he h2
      obtain ⟨i1, i2, i3⟩ := ih h1 he1
      obtain ⟨z1, z2⟩ := frame_sizes he1 h2
      refine ⟨z1.trans i1, z2.trans i2, ?_⟩
      rw [beads_frame hsch hbox he1 h2 (fun c t C reg lv st hc hs => shear_carries hW hform (hc.trans i1) hs)
        (i := i) (by omega) hsg, i3]
      funext k
      fin_cases k <;> simp [sheared] <;> ring
  exact key.2.2

/-! ## The hypotheses can be met -/

theorem star_inputs {n : ℕ} (hn : 1 ≤ n ∧ n ≤ 7) (h6 : n ≠ 6) (f dt : ℝ) : ∃ u, input_ftsuoe n .fts starP f dt = some u := by
  obtain ⟨u, h, -⟩ := (C66_complete (n := n) (form := .fts) (P := starP) ⟨by simp [starP], by simp⟩ (by simp [starP])
    (fun _ i _ h => by
      by_cases hi : i = 0
      · have := congrFun h 2; simp [starP, hi] at this
      · have := congrFun h 0; simp [starP, hi] at this) (fun h => absurd h h6) f dt).mpr
    ⟨hn.1, hn.2, fun h => by simp [starP] at h⟩
  exact ⟨u, h⟩

/-- A sphere between two dumbbells: weight on the sphere only, and springs that pull. -/
example (f dt : ℝ) : (∃ u, input_ftsuoe 1 .fts starP f dt = some u ∧ Carries starP u.inp (weight starP)) ∧
    (∃ u, input_ftsuoe 3 .fts starP f dt = some u ∧ Carries starP u.inp (hooke starP)) ∧
    ∃ u, input_ftsuoe 4 .fts starP f dt = some u ∧ Carries starP u.inp (pushTotal 50 20 starP) := by
  obtain ⟨u1, h1⟩ := star_inputs (n := 1) (by omega) (by omega) f dt
  obtain ⟨u3, h3⟩ := star_inputs (n := 3) (by omega) (by omega) f dt
  obtain ⟨u4, h4⟩ := star_inputs (n := 4) (by omega) (by omega) f dt
  exact ⟨⟨u1, h1, C69_weight (.inl rfl) (.inl rfl) h1⟩, ⟨u3, h3, (C69_spring (.inl rfl) h3).1⟩,
    ⟨u4, h4, C69_repulsion (.inl rfl) h4⟩⟩

/-- `N` frames with near and far field, prescribed stresslets, no limit on the length of dumbbells. -/
noncomputable def calmSettings (sch : Scheme) (N : ℕ) : Settings :=
  { starSettings sch N with input_form := .fts, explosion_protection := false }

theorem calmSettings_ok {sch : Scheme} (h : sch = .euler ∨ sch = .rk4) (N Nd : ℕ) : Runnable (calmSettings sch N) Nd := by
  obtain ⟨a1, a2, a3, a4, a5, a6, a7, a8, a9⟩ := starSettings_ok (sch := sch) (Nd := Nd) N
    (h.elim .inl fun h => .inr (.inr h))
  exact ⟨a1, a2, a3, a4, a5, a6, a7, a8, a9⟩

theorem program_run {s : State} {out : Option Saved × Option Saved} (h : program W S s = some out) :
    ∃ u s', W.input_ftsuoe s.posdata 0 0.1 Vel.blank none = some u ∧
      runFrames W S u.bl u.tr s (S.num_frames - S.start) = some s' := by
  obtain ⟨u, hu, h⟩ := Option.bind_eq_some_iff.mp h
  obtain ⟨s', hs, -⟩ := Option.bind_eq_some_iff.mp h
  exact ⟨u, s', hu, hs⟩

theorem run_calm (hoff : S.explosion_protection = false) {s0 s : State} (h0 : s0.error = false) {j : ℕ}
    (h : runFrames W S bl tr s0 j = some s) : s.error = false := by
  induction j generalizing s with
  | zero => obtain rfl := Option.some.inj h; exact h0
  | succ j ih =>
    obtain ⟨s1, h1, h2⟩ := run_prev h
    exact C34_off (.inl hoff) (ih h1) h2

theorem shear_open (hW : Ships 7 .fts W) {c : Config} (hu : W.input_ftsuoe c 0 0.1 Vel.blank none = some u) (k : Fin 3) :
    u.bl k - u.tr k = 0 := by
  rw [hW, shear_input] at hu
  rw [← Option.some.inj hu]
  exact sub_self _

/-- Any number of frames of the sphere between two dumbbells in the shear flow: the sphere stays, the dumbbells turn
and grow. -/
example (sch : Scheme) (hs : sch = .euler ∨ sch = .rk4) (N : ℕ) (hN : 0 < N) :
    ∃ bl tr s, runFrames (shippedWorld 7 .fts) (calmSettings sch N) bl tr (State.fresh starStart) N = some s ∧
      s.error = false ∧ s.posdata.P.spherePos 0 = (swirled (calmSettings sch N).timestep)^[N] 0 := by
  have hst := star_steady 0 0 0 .rk4 N
  obtain ⟨out, h⟩ := C69_endless (S := calmSettings sch N) dampT_dissipates (shippedWorld_ships 7 .fts) rfl
    (calmSettings_ok hs N _) hs rfl starStart_arrows hN hst.radii hst.ratios (.inl rfl) (by simp [starStart, starP])
    star_apart
  obtain ⟨u, s, hu, hr⟩ := program_run h
  have hr' : runFrames (shippedWorld 7 .fts) (calmSettings sch N) u.bl u.tr (State.fresh starStart) N = some s := hr
  have he := run_calm rfl rfl hr'
  refine ⟨u.bl, u.tr, s, hr', he, ?_⟩
  exact (C69_spiral (shippedWorld_ships 7 .fts) rfl hs rfl (shear_open (shippedWorld_ships 7 .fts) hu)
    (s0 := State.fresh starStart) (by simp [State.fresh, starStart, starP]) hr' he).1 0 (by simp [State.fresh, starStart, starP])

/-- A single upright dumbbell. -/
noncomputable def rodStart : Config where
  P := { Ns := 0, Nd := 1, sphereSize := fun _ => 0, spherePos := fun _ => 0, dumbSize := fun _ => 1,
         dumbPos := fun _ => 0, dumbDx := fun _ => ![0, 0, 4] }
  rots := fun _ _ => 0

theorem rod_radius {x : ℕ} : radius rodStart.P x = 1 := by
  unfold radius
  split_ifs with h1 h2
  · simp [rodStart] at h1
  · rfl
  · rfl

theorem rod_up : (![0, 0, 4] : Vec3) 2 = 4 := rfl

theorem rod_apart : ¬ Touching rodStart.P := by
  rintro ⟨x, hx, y, hy, hxy, h⟩
  have hb : beads rodStart.P = 2 := rfl
  rw [hb] at hx hy
  have hl : len (fun i => centre rodStart.P x i - centre rodStart.P y i) = 4 := by
    have : (x = 0 ∧ y = 1) ∨ (x = 1 ∧ y = 0) := by omega
    rcases this with ⟨rfl, rfl⟩ | ⟨rfl, rfl⟩ <;> simp [len, centre, rodStart, Fin.sum_univ_three, rod_up]
    · rw [show (-(4 / 2) - 4 / 2 : ℝ) ^ 2 = 4 ^ 2 by norm_num, Real.sqrt_sq (by norm_num)]
  rw [hl, rod_radius, rod_radius] at h
  norm_num at h

/-- Its upper bead moves along, its lower bead against the flow. -/
example : ∃ bl tr s, runFrames (shippedWorld 7 .fts) (calmSettings .euler 1) bl tr (State.fresh rodStart) 1 = some s ∧
    s.error = false ∧ beadPos s.posdata.P 1 0 = ![2 * (calmSettings .euler 1).timestep, 0, 2] := by
  have hW := shippedWorld_ships 7 .fts
  obtain ⟨out, h⟩ : ∃ out, program (shippedWorld 7 .fts) (calmSettings .euler 1) (State.fresh rodStart) = some out := by
    rcases h : program (shippedWorld 7 .fts) (calmSettings .euler 1) (State.fresh rodStart) with _ | out
    · exfalso
      obtain ⟨u, hu, j, hj, s, hs, he, d, hv, -, ht⟩ := C66_runs (S := calmSettings .euler 1) dampT_dissipates hW rfl
        (calmSettings_ok (.inl rfl) 1 _) (fun i hi => absurd hi (by simp [rodStart])) (by simp [calmSettings, starSettings, loneSettings])
        (fun x _ => by rw [rod_radius]; norm_num) (fun x _ y _ => by
          rw [rod_radius, rod_radius]; exact ⟨1, by norm_num [shippedWorld, constWorld, dampT], by norm_num⟩)
        ⟨by simp, by simp [rodStart]⟩ (.inl rfl) (by simp [rodStart]) (by omega) (by omega)
        (show 1 ≤ 7 ∧ 7 ≤ 7 ∧ _ from ⟨by omega, by omega, by omega⟩) rod_apart h
      obtain rfl : j = 0 := by simpa [calmSettings, starSettings, loneSettings] using hj
      obtain rfl := Option.some.inj hs
      rcases hv with rfl | ⟨h, -⟩
      · exact rod_apart ht
      · simp [calmSettings, starSettings, loneSettings] at h
    · exact ⟨out, rfl⟩
  obtain ⟨u, s, hu, hr⟩ := program_run h
  have hr' : runFrames (shippedWorld 7 .fts) (calmSettings .euler 1) u.bl u.tr (State.fresh rodStart) 1 = some s := hr
  have he := run_calm rfl rfl hr'
  refine ⟨u.bl, u.tr, s, hr', he, ?_⟩
  rw [C69_shear_dumbbells hW rfl (.inl rfl) (shear_open hW hu) (s0 := State.fresh rodStart) rfl hr' he (i := 0)
    (by simp [State.fresh, rodStart]) (.inr rfl)]
  funext k
  fin_cases k <;> norm_num [sheared, beadPos, State.fresh, rodStart, rod_up]
  ring

end SD
