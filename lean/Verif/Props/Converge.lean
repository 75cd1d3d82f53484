import Verif.Lemmas.ConvergeStart
import Verif.Props.ShippedRun

/-!
# C97: smaller and smaller time steps
-/

set_option autoImplicit false

namespace SD

open Spec Move Lip Ship

variable {W : World} {S : Settings} {c : Config} {u : UserInput} {T : ℝ} {X : ℝ → ℕ → Vec3}

theorem course_dissipates (hD : TableDissipates W.table) (hk : 0 < S.cutoff_factor)
    (hdrag : S.use_drag_Minfinity = false) (hNd : c.P.Nd = 0) (hNs : 0 < c.P.Ns) (hc : Steady W S c)
    (hu : Unchanging W c u) : Course W S c u (Sound c.P) :=
  ⟨hNd, hNs, hc, hu, hdrag, hk, ⟨hD.nonempty, hD.ascending⟩, fun h _ hr hd =>
    dissipates_serves (S := stepped S h) hD hk hr hd.Ns hd.Nd⟩

theorem course_shipped (hT : W.table = shippedTable) (hk : 0 < S.cutoff_factor) (hdrag : S.use_drag_Minfinity = false)
    {a mu : ℝ} (ha : 0 < a) (hE : EqualBeads c.P a) (hmu : ∀ d f dt v r u, W.input_ftsuoe d f dt v r = some u → u.mu = mu)
    (hNd : c.P.Nd = 0) (hNs : 0 < c.P.Ns) (hc : Steady W S c) (hu : Unchanging W c u) : Course W S c u (Stiff c a mu) :=
  ⟨hNd, hNs, hc, hu, hdrag, hk, by rw [hT]; exact ⟨shipped_ne, shipped_ascending⟩, fun h _ hr hd =>
    shipped_serves (S := stepped S h) hT hdrag hk ha hE hmu hr hd⟩

theorem tracks_of {L : NDMat → Prop} (hC : Course W S c u L) (hS : Runnable S 0) (har : Arrows c)
    (h2d : S.fully_2d_problem = false) (hF : Follows W S c T X) (hT : 0 < T) : Tracks W S c T X := by
  obtain ⟨C, -, n0, -, h⟩ := converge hC hS har h2d hF hT
  refine ⟨C, n0, fun n hn m hm bl tr hb => ?_⟩
  obtain ⟨s, h1, h2, -, -, h3⟩ := h n hn m hm bl tr hb
  exact ⟨s, h1, h2, h3⟩

/-- **C97** (convergence). Spheres under inputs that do not change, with a table that dissipates: if the equations of
motion have a solution up to the time `T`, on which no two spheres touch or are exactly at the range of the near field,
then the runs in `n` equal steps up to `T` go through for all large `n`, and at all frames they are within a constant times
`1 / n` of it. This holds for Euler's, the Adams-Bashforth and the Runge-Kutta scheme, and however rarely the far field is
inverted. -/
theorem C97_converges (hD : TableDissipates W.table) (hdrag : S.use_drag_Minfinity = false)
    (hNd : c.P.Nd = 0) (hNs : 0 < c.P.Ns) (hS : Runnable S 0) (h2d : S.fully_2d_problem = false) (har : Arrows c)
    (hc : Steady W S c) (hu : Unchanging W c u) (hF : Follows W S c T X) (hT : 0 < T) : Tracks W S c T X :=
  tracks_of (course_dissipates hD hS.cutoff hdrag hNd hNs hc hu) hS har h2d hF hT

/-- **C97** (the shipped table). The same for spheres of one size with the shipped table. -/
theorem C97_shipped (hTab : W.table = shippedTable) (hdrag : S.use_drag_Minfinity = false)
    {a mu : ℝ} (ha : 0 < a) (hE : EqualBeads c.P a) (hmu : ∀ d f dt v r u, W.input_ftsuoe d f dt v r = some u → u.mu = mu)
    (hNd : c.P.Nd = 0) (hNs : 0 < c.P.Ns) (hS : Runnable S 0) (h2d : S.fully_2d_problem = false) (har : Arrows c)
    (hc : Steady W S c) (hu : Unchanging W c u) (hF : Follows W S c T X) (hT : 0 < T) : Tracks W S c T X :=
  tracks_of (course_shipped hTab hS.cutoff hdrag ha hE hmu hNd hNs hc hu) hS har h2d hF hT

/-- **C97** (one motion). The equations of motion have no two different solutions from the same start. -/
theorem C97_unique (hTab : W.table = shippedTable) (hdrag : S.use_drag_Minfinity = false)
    {a mu : ℝ} (ha : 0 < a) (hE : EqualBeads c.P a) (hmu : ∀ d f dt v r u, W.input_ftsuoe d f dt v r = some u → u.mu = mu)
    (hNd : c.P.Nd = 0) (hNs : 0 < c.P.Ns) (hS : Runnable S 0) (h2d : S.fully_2d_problem = false) (har : Arrows c)
    (hc : Steady W S c) (hu : Unchanging W c u) {X' : ℝ → ℕ → Vec3} (hF : Follows W S c T X) (hF' : Follows W S c T X') :
    ∀ t ∈ Set.Icc 0 T, ∀ i < c.P.Ns, X t i = X' t i := fun _ ht _ hi =>
  motion_unique (course_shipped hTab hS.cutoff hdrag ha hE hmu hNd hNs hc hu) hS har h2d hF hF' ht hi

/-- **C97** (a motion for some time). From every start in which no two spheres touch or are exactly at the range of the
near field, the equations of motion have a solution for some time. -/
theorem C97_exists (hTab : W.table = shippedTable) (hdrag : S.use_drag_Minfinity = false)
    {a mu : ℝ} (ha : 0 < a) (hE : EqualBeads c.P a) (hmu : ∀ d f dt v r u, W.input_ftsuoe d f dt v r = some u → u.mu = mu)
    (hNd : c.P.Nd = 0) (hNs : 0 < c.P.Ns) (hS : Runnable S 0) (hc : Steady W S c) (hu : Unchanging W c u) (hcl : Loose c.P)
    (hr : S.use_Minfinity_only = false → ¬ AtRange S.cutoff_factor c.P) : ∃ T > 0, ∃ X, Follows W S c T X :=
  follow (course_shipped hTab hS.cutoff hdrag ha hE hmu hNd hNs hc hu) hS.extract hcl hr

/-- **C97** (all schemes agree in the limit). Two runs to the same time, in `n` and `n'` steps, with whatever two schemes and
intervals between the inversions, end within a constant times `1 / n + 1 / n'` of each other. -/
theorem C97_schemes (hTab : W.table = shippedTable) (hdrag : S.use_drag_Minfinity = false)
    {a mu : ℝ} (ha : 0 < a) (hE : EqualBeads c.P a) (hmu : ∀ d f dt v r u, W.input_ftsuoe d f dt v r = some u → u.mu = mu)
    (hNd : c.P.Nd = 0) (hNs : 0 < c.P.Ns) (h2d : S.fully_2d_problem = false) (har : Arrows c)
    (hc : Steady W S c) (hu : Unchanging W c u) (hF : Follows W S c T X) (hT : 0 < T) {sch sch' : Scheme} {q q' : ℕ} {e e' : Bool}
    (hS : Runnable (retimed S sch q e) 0) (hS' : Runnable (retimed S sch' q' e') 0) :
    ∃ (C : ℝ) (n0 : ℕ), ∀ n ≥ n0, ∀ n' ≥ n0, ∀ bl tr : Vec3, bl = tr →
      ∃ s s', runFrames W (stepped (retimed S sch q e) (T / n)) bl tr (State.fresh c) n = some s ∧
        runFrames W (stepped (retimed S sch' q' e') (T / n')) bl tr (State.fresh c) n' = some s' ∧
        ∀ i < c.P.Ns, ∀ k, |s.posdata.P.spherePos i k - s'.posdata.P.spherePos i k| ≤ C * (1 / n + 1 / n') := by
  have course : ∀ sch q e, Course W (retimed S sch q e) c u (Stiff c a mu) := fun sch q e =>
    course_shipped (S := retimed S sch q e) hTab hS.cutoff hdrag ha hE hmu hNd hNs
      ⟨hc.radii, hc.ratios, hc.allowed, hc.beads, hc.answers⟩ hu
  have fol : ∀ sch q e, Follows W (retimed S sch q e) c T X := fun _ _ _ => ⟨hF.starts, hF.moves⟩
  obtain ⟨C, hC0, n0, hn0, h⟩ := ends (course sch q e) hS har h2d (fol sch q e) hT
  obtain ⟨C', hC0', n0', hn0', h'⟩ := ends (course sch' q' e') hS' har h2d (fol sch' q' e') hT
  refine ⟨C + C', n0 + n0', fun n hn n' hn' bl tr hb => ?_⟩
  obtain ⟨s, h1, -, h3⟩ := h n (by omega) bl tr hb
  obtain ⟨s', h1', -, h3'⟩ := h' n' (by omega) bl tr hb
  refine ⟨s, s', h1, h1', fun i hi k => ?_⟩
  have a1 := h3 i hi k
  have a2 := h3' i hi k
  rw [abs_sub_comm] at a2
  have t := abs_sub_le (s.posdata.P.spherePos i k) (X T i k) (s'.posdata.P.spherePos i k)
  have i1 : (0 : ℝ) ≤ 1 / n := by positivity
  have i2 : (0 : ℝ) ≤ 1 / n' := by positivity
  have e1 : C / (n : ℝ) = C * (1 / n) := by ring
  have e2 : C' / (n' : ℝ) = C' * (1 / n') := by ring
  rw [e1] at a1
  rw [e2] at a2
  nlinarith [mul_nonneg hC0 i2, mul_nonneg hC0' i1]

/-! ## The listed setups and inputs -/

/-- The inputs 1, 5 and 7 do not change. -/
theorem ships_unchanging {m : ℕ} {form : InputForm} (hW : Ships m form W) (hm : m = 1 ∨ m = 5 ∨ m = 7) :
    ∃ u, Unchanging W c u := by
  have hdef : ∀ d : Config, SameSizes c d → defaultUserInput form d.P = defaultUserInput form c.P := by
    intro d hd
    unfold defaultUserInput defaultInputs empty_vectors
    rw [hd.Ns, hd.Nd]
  obtain ⟨u, hu⟩ : ∃ u, input_ftsuoe m form c.P 0 0 = some u := by
    rcases hm with rfl | rfl | rfl <;> exact ⟨_, by unfold input_ftsuoe; simp; rfl⟩
  refine ⟨u, fun d f dt v r hd => ?_⟩
  rw [hW]
  rcases hm with rfl | rfl | rfl
  · refine ⟨u.Ot, u.Et, ?_⟩
    rw [← hu]
    unfold input_ftsuoe
    rw [hdef d hd, hd.Ns]
    simp
  · refine ⟨u.Ot, u.Et, ?_⟩
    rw [← hu]
    unfold input_ftsuoe
    rw [hdef d hd, hd.Ns]
    simp
  · refine ⟨(constant_shear 1 f dt 0 c.P.Ns).Ot_infinity, (constant_shear 1 f dt 0 c.P.Ns).Et_infinity, ?_⟩
    unfold input_ftsuoe at hu ⊢
    simp at hu
    subst hu
    rw [hdef d hd, hd.Ns]
    simp [constant_shear]

theorem listed_facts {m : ℕ} {form : InputForm} (hTab : W.table = shippedTable)
    (hW : Ships m form W) (hm : m = 1 ∨ m = 5 ∨ m = 7) (hform : S.input_form = form) {file : Option Saved} {fuel : ℕ}
    {w : ℕ → ℝ} (hw : Stream w) {n : ℕ} (hn : n ≤ 3) (hc : pos_setup file fuel w n = .ok c)
    (hf : form ≠ .duf) (hworks : Works m form c.P.Ns) :
    Arrows c ∧ Steady W S c ∧ c.P.Nd = 0 ∧ 0 < c.P.Ns ∧ EqualBeads c.P 1 ∧
      (∀ d f dt v r u, W.input_ftsuoe d f dt v r = some u → u.mu = 1) ∧ ∃ u, Unchanging W c u := by
  obtain ⟨har, hst⟩ := setup_steady hW hform hw (by omega : n ≤ 4) hc (by rw [hTab]; simp [shippedTable])
    (fun h => absurd h (by omega)) (.inr (by omega)) hf (by omega) (by omega) hworks
  obtain ⟨h1, h2, h3, -⟩ := C72_apart hw (by omega : n ≠ 8) hc
  have hNs : c.P.Ns = (listedCounts n).1 := congrArg Prod.fst h1
  have hNd : c.P.Nd = 0 := by
    have : c.P.Nd = (listedCounts n).2 := congrArg Prod.snd h1
    rw [this]
    rcases pos_setup_cases hc with ⟨rfl, -⟩ | ⟨rfl, -⟩ | ⟨rfl, -⟩ | ⟨rfl, -⟩ | ⟨rfl, -⟩ | ⟨rfl, -⟩ | ⟨rfl, -⟩ | ⟨rfl, -⟩ <;>
      first | rfl | omega
  have hNs0 : 0 < c.P.Ns := by
    rw [hNs]
    rcases pos_setup_cases hc with ⟨rfl, -⟩ | ⟨rfl, -⟩ | ⟨rfl, -⟩ | ⟨rfl, -⟩ | ⟨rfl, -⟩ | ⟨rfl, -⟩ | ⟨rfl, -⟩ | ⟨rfl, -⟩ <;>
      first | (simp [listedCounts]; done) | omega
  have hrad : ∀ x < beads c.P, radius c.P x = 1 := fun x hx => by
    rcases setup_radii hw (by omega) hc hx with e | ⟨-, e⟩
    · exact e
    · omega
  have hmu : ∀ d f dt v r u, W.input_ftsuoe d f dt v r = some u → u.mu = 1 := fun d f dt v r u hu => by
    rw [hW] at hu
    exact (shipped_box hu).1
  exact ⟨har, hst, hNd, hNs0, hrad, hmu, ships_unchanging (c := c) hW hm⟩

/-- **C97** (listed setups). The runs of example (b), and with them those from the setups 1 to 3 under the inputs 1, 5 and 7
in all forms that work with them: from a start not exactly at the range of the near field there is one motion, and as long as
it lasts, the runs of all schemes, with all intervals between the inversions of the far field, converge to it as the time
step shrinks. -/
theorem C97_listed {m : ℕ} {form : InputForm} (hTab : W.table = shippedTable) (hdrag : S.use_drag_Minfinity = false)
    (hW : Ships m form W) (hm : m = 1 ∨ m = 5 ∨ m = 7) (hform : S.input_form = form) {file : Option Saved} {fuel : ℕ}
    {w : ℕ → ℝ} (hw : Stream w) {n : ℕ} (hn : n ≤ 3) (hc : pos_setup file fuel w n = .ok c) (hS : Runnable S 0)
    (h2d : S.fully_2d_problem = false) (hf : form ≠ .duf) (hworks : Works m form c.P.Ns) :
    ((S.use_Minfinity_only = false → ¬ AtRange S.cutoff_factor c.P) → ∃ T > 0, ∃ X, Follows W S c T X) ∧
    ∀ T > 0, ∀ X, Follows W S c T X → (∀ X', Follows W S c T X' → ∀ t ∈ Set.Icc 0 T, ∀ i < c.P.Ns, X' t i = X t i) ∧
      ∀ sch q e, q ≠ 0 → (sch = .euler ∨ sch = .ab2 ∨ sch = .rk4) → Tracks W (retimed S sch q e) c T X := by
  obtain ⟨har, hst, hNd, hNs0, hrad, hmu, u, hu⟩ := listed_facts hTab hW hm hform hw hn hc hf hworks
  refine ⟨fun hr => C97_exists hTab hdrag one_pos hrad hmu hNd hNs0 hS hst hu (fun x hx y hy hxy => ?_) hr,
    fun T hT X hF => ⟨fun X' hF' t ht i hi => C97_unique hTab hdrag one_pos hrad hmu hNd hNs0 hS h2d har hst hu hF' hF t ht i hi,
    fun sch q e hq hsch => ?_⟩⟩
  · have h := (C72_room hw (by omega : n ≤ 4) hc).1 x hx y hy hxy
    rw [hrad x hx, hrad y hy] at h ⊢
    have h : 3 * ((1 + 1) / 2) ≤ len (fun i => centre c.P x i - centre c.P y i) := h
    linarith
  · have hS' : Runnable (retimed S sch q e) 0 := ⟨by
      rcases hsch with h | h | h
      · exact .inl h
      · exact .inr (.inl ⟨h, rfl⟩)
      · exact .inr (.inr h), hS.extract, hS.cutoff, hq, hS.start, hS.first, hS.pos, hS.force, hS.temp⟩
    exact C97_shipped (S := retimed S sch q e) hTab hdrag one_pos hrad hmu hNd hNs0 hS' h2d har
      ⟨hst.radii, hst.ratios, hst.allowed, hst.beads, hst.answers⟩ hu ⟨hF.starts, hF.moves⟩ hT

/-! ## Examples -/

/-- A sphere dragged along in a flow, with a table that dissipates. -/
example (V U O c : Vec3) : ∃ T > 0, ∃ X,
    Tracks (constWorld { loneUser V U O c 0 with mu := 3 }) (starSettings .rk4 1) loneStart T X := by
  have hu : Unchanging (constWorld { loneUser V U O c 0 with mu := 3 }) loneStart { loneUser V U O c 0 with mu := 3 } :=
    fun d f dt v r _ => ⟨_, _, rfl⟩
  have hone : ∀ x < beads loneStart.P, x = 0 := fun x hx => by simp [beads, loneStart, loneP] at hx; omega
  have hS := starSettings_ok (sch := .rk4) (Nd := 0) 1 (.inr (.inr rfl))
  obtain ⟨T, hT, X, hF⟩ := follow (course_dissipates dampT_dissipates hS.cutoff rfl rfl (by simp [loneStart, loneP])
    (lone_steady V U O c .rk4 1) hu) rfl (fun x hx y hy hxy => absurd ((hone x hx).trans (hone y hy).symm) hxy)
    (fun _ ⟨x, hx, y, hy, hxy, _⟩ => hxy ((hone x hx).trans (hone y hy).symm))
  exact ⟨T, hT, X, C97_converges dampT_dissipates rfl rfl (by simp [loneStart, loneP]) hS rfl loneStart_isLone.arrows
    (lone_steady V U O c .rk4 1) hu hF hT⟩


/-- Near and far field, range 2, form `fte`. -/
noncomputable def threeSettings : Settings := { formSettings .fte 1 with cutoff_factor := 2 }

theorem threeSettings_ok : Runnable threeSettings 0 := by
  obtain ⟨a1, a2, -, a4, a5, a6, a7, a8, a9⟩ := formSettings_ok .fte 1 0
  exact ⟨a1, a2, by norm_num [threeSettings], a4, a5, a6, a7, a8, a9⟩

theorem three_range : ¬ AtRange 2 setup2.config.P := by
  rintro ⟨x, hx, y, hy, hxy, h⟩
  have hb : beads setup2.config.P = 3 := by simp [beads, setup2, SetupRows.config]
  rw [hb] at hx hy
  have key : ∀ a b : ℝ, len (fun i => (![a, 0, 0] : Vec3) i - (![b, 0, 0] : Vec3) i) = |a - b| := fun a b => by
    unfold len
    rw [Fin.sum_univ_three]
    simp [Real.sqrt_sq_eq_abs]
  have : (x = 0 ∨ x = 1 ∨ x = 2) ∧ (y = 0 ∨ y = 1 ∨ y = 2) := by omega
  obtain ⟨rfl | rfl | rfl, rfl | rfl | rfl⟩ := this <;> first
    | exact hxy rfl
    | (simp only [centre, radius, setup2, SetupRows.config, List.length_cons, List.length_nil, List.getD_cons_zero,
        List.getD_cons_succ, if_true, Nat.zero_add, Nat.reduceAdd, Nat.reduceLT, Nat.ofNat_pos, Nat.one_lt_ofNat] at h
       rw [key] at h
       norm_num [abs_of_pos, abs_of_neg] at h)

/-- Example (b): the three spheres of setup 2 fall, with prescribed forces, torques and strain rates. Their motion exists for
some time, is unique, and the Runge-Kutta runs as well as the Adams-Bashforth runs with ever smaller steps converge to it. -/
example : ∃ T > 0, ∃ X, Follows (listedWorld 1 .fte) threeSettings setup2.config T X ∧
    Tracks (listedWorld 1 .fte) (retimed threeSettings .rk4 1 true) setup2.config T X ∧
    Tracks (listedWorld 1 .fte) (retimed threeSettings .ab2 1 true) setup2.config T X := by
  obtain ⟨h1, h2⟩ := C97_listed (W := listedWorld 1 .fte) (S := threeSettings) rfl rfl (listedWorld_ships 1 .fte) (.inl rfl) rfl
    (file := none) (fuel := 0) (w := fun _ => 0) (fun _ => by norm_num) (n := 2) (by norm_num) (c := setup2.config) rfl
    threeSettings_ok rfl (by simp) (by simp [Works])
  obtain ⟨T, hT, X, hF⟩ := h1 fun _ => three_range
  exact ⟨T, hT, X, hF, (h2 T hT X hF).2 .rk4 1 true one_ne_zero (.inr (.inr rfl)),
    (h2 T hT X hF).2 .ab2 1 true one_ne_zero (.inr (.inl rfl))⟩

end SD
