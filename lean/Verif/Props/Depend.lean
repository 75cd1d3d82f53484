import Verif.Lemmas.DependRun
import Verif.Props.Converge

/-!
# C98: runs from nearby starts
-/

set_option autoImplicit false

namespace SD

open Spec Move Lip Ship

variable {W : World} {S : Settings} {c : Config} {u : UserInput} {bl tr : Vec3} {k : ℕ} {s : State}

/-- **C98** (continuous dependence). Spheres under inputs that do not change, with a table that dissipates: if a run of `k`
frames keeps clear of contacts and of the edge of the near field, then the runs from all starts near its start go through,
and their ends are no further from its end than a constant times the distance of the starts. This holds for all three schemes
and however rarely the far field is inverted. -/
theorem C98_depends (hD : TableDissipates W.table) (hdrag : S.use_drag_Minfinity = false) (hNd : c.P.Nd = 0) (hNs : 0 < c.P.Ns)
    (hS : Runnable S 0) (h2d : S.fully_2d_problem = false) (hc : Steady W S c) (hu : Unchanging W c u) (hb : bl = tr)
    (hs : runFrames W S bl tr (State.fresh c) k = some s) (hcl : Clears W S bl tr c k) : Depends W S bl tr c k s :=
  depend (course_dissipates hD hS.cutoff hdrag hNd hNs hc hu) hS h2d hb hs hcl

/-- **C98** (the shipped table). The same for spheres of one size with the shipped table. -/
theorem C98_shipped (hTab : W.table = shippedTable) (hdrag : S.use_drag_Minfinity = false)
    {a mu : ℝ} (ha : 0 < a) (hE : EqualBeads c.P a) (hmu : ∀ d f dt v r u, W.input_ftsuoe d f dt v r = some u → u.mu = mu)
    (hNd : c.P.Nd = 0) (hNs : 0 < c.P.Ns) (hS : Runnable S 0) (h2d : S.fully_2d_problem = false)
    (hc : Steady W S c) (hu : Unchanging W c u) (hb : bl = tr)
    (hs : runFrames W S bl tr (State.fresh c) k = some s) (hcl : Clears W S bl tr c k) : Depends W S bl tr c k s :=
  depend (course_shipped hTab hS.cutoff hdrag ha hE hmu hNd hNs hc hu) hS h2d hb hs hcl

/-- **C98** (runs with small steps). As long as the motion of C97 lasts, all the runs that follow it with small enough steps
keep clear, so that they depend continuously on their starts. -/
theorem C98_along (hTab : W.table = shippedTable) (hdrag : S.use_drag_Minfinity = false)
    {a mu : ℝ} (ha : 0 < a) (hE : EqualBeads c.P a) (hmu : ∀ d f dt v r u, W.input_ftsuoe d f dt v r = some u → u.mu = mu)
    (hNd : c.P.Nd = 0) (hNs : 0 < c.P.Ns) (hS : Runnable S 0) (h2d : S.fully_2d_problem = false) (har : Arrows c)
    (hc : Steady W S c) (hu : Unchanging W c u) {T : ℝ} {X : ℝ → ℕ → Vec3} (hF : Follows W S c T X) (hT : 0 < T) (hb : bl = tr) :
    ∃ n0 : ℕ, ∀ n ≥ n0, ∃ s, runFrames W (stepped S (T / n)) bl tr (State.fresh c) n = some s ∧
      Clears W (stepped S (T / n)) bl tr c n ∧ Depends W (stepped S (T / n)) bl tr c n s := by
  obtain ⟨C, -, n0, -, h⟩ := converge (course_shipped hTab hS.cutoff hdrag ha hE hmu hNd hNs hc hu) hS har h2d hF hT
  refine ⟨n0, fun n hn => ?_⟩
  obtain ⟨s, h1, -, -, h2, -⟩ := h n hn n le_rfl bl tr hb
  exact ⟨s, h1, h2, C98_shipped (S := stepped S (T / n)) hTab hdrag ha hE hmu hNd hNs
    ⟨hS.scheme, hS.extract, hS.cutoff, hS.every, hS.start, hS.first, hS.pos, hS.force, hS.temp⟩ h2d
    ⟨hc.radii, hc.ratios, hc.allowed, hc.beads, hc.answers⟩ hu hb h1 h2⟩

/-- **C98** (limits). Under these conditions, runs from starts that tend to the start of the given run end in
places that tend to its end. -/
theorem C98_limit (hs : Depends W S bl tr c k s) {c' : ℕ → Config} (hsz : ∀ n, SameSizes c (c' n)) (har : ∀ n, Arrows (c' n))
    (hlim : ∀ i < c.P.Ns, ∀ x, Filter.Tendsto (fun n => (c' n).P.spherePos i x) Filter.atTop (nhds (c.P.spherePos i x))) :
    ∃ (n0 : ℕ) (s' : ℕ → State), (∀ n ≥ n0, runFrames W S bl tr (State.fresh (c' n)) k = some (s' n) ∧ (s' n).error = false) ∧
      ∀ i < c.P.Ns, ∀ x, Filter.Tendsto (fun n => (s' n).posdata.P.spherePos i x) Filter.atTop (nhds (s.posdata.P.spherePos i x)) := by
  classical
  obtain ⟨L, hL, δ, hδ, h⟩ := hs
  -- near enough from some index on
  have near : ∀ ε > 0, ∀ᶠ n in Filter.atTop, ∀ i < c.P.Ns, ∀ x, |(c' n).P.spherePos i x - c.P.spherePos i x| ≤ ε := by
    intro ε hε
    have : ∀ᶠ n in Filter.atTop, ∀ i : Fin c.P.Ns, ∀ x, |(c' n).P.spherePos i x - c.P.spherePos i x| ≤ ε :=
      Filter.eventually_all.mpr fun i => Filter.eventually_all.mpr fun x => by
        filter_upwards [(Metric.tendsto_nhds.mp (hlim i i.2 x)) ε hε] with n hn
        rw [Real.dist_eq] at hn
        exact hn.le
    exact this.mono fun n hn i hi x => hn ⟨i, hi⟩ x
  obtain ⟨n0, hn0⟩ := Filter.eventually_atTop.mp (near δ hδ)
  have ex : ∀ n, ∃ s', n ≥ n0 → runFrames W S bl tr (State.fresh (c' n)) k = some s' ∧ s'.error = false := fun n => by
    by_cases hn : n ≥ n0
    · obtain ⟨s', h1, h2, -⟩ := h (c' n) (hsz n) (har n) δ le_rfl (hn0 n hn)
      exact ⟨s', fun _ => ⟨h1, h2⟩⟩
    · exact ⟨State.fresh c, fun h => absurd h hn⟩
  choose s' hs' using ex
  refine ⟨n0, s', hs', fun i hi x => Metric.tendsto_nhds.mpr fun ε hε => ?_⟩
  have hp : 0 < min δ (ε / (L + 1)) := lt_min hδ (by positivity)
  filter_upwards [near _ hp, Filter.eventually_ge_atTop n0] with n h1 hn
  obtain ⟨t, t1, -, t3⟩ := h (c' n) (hsz n) (har n) _ (min_le_left _ _) h1
  rw [(hs' n hn).1] at t1
  obtain rfl := Option.some.inj t1
  rw [Real.dist_eq]
  refine (t3 i hi x).trans_lt ?_
  have : min δ (ε / (L + 1)) * (L + 1) ≤ ε := by
    have := min_le_right δ (ε / (L + 1))
    rwa [le_div_iff₀ (by linarith)] at this
  nlinarith

/-- **C98** (listed setups). For the setups 1 to 3 under the inputs 1, 5 and 7 in all forms that work with them: every run of
every scheme that keeps clear depends continuously on where the spheres start; and from a start not exactly at the range of
the near field there is a time up to which all the runs with small enough steps do so. -/
theorem C98_listed {m : ℕ} {form : InputForm} (hTab : W.table = shippedTable) (hdrag : S.use_drag_Minfinity = false)
    (hW : Ships m form W) (hm : m = 1 ∨ m = 5 ∨ m = 7) (hform : S.input_form = form) {file : Option Saved} {fuel : ℕ}
    {w : ℕ → ℝ} (hw : Stream w) {n : ℕ} (hn : n ≤ 3) (hc : pos_setup file fuel w n = .ok c) (hS : Runnable S 0)
    (h2d : S.fully_2d_problem = false) (hf : form ≠ .duf) (hworks : Works m form c.P.Ns) (hb : bl = tr) :
    (∀ k s, runFrames W S bl tr (State.fresh c) k = some s → Clears W S bl tr c k → Depends W S bl tr c k s) ∧
    ((S.use_Minfinity_only = false → ¬ AtRange S.cutoff_factor c.P) → ∃ T > 0, ∃ N0 : ℕ, ∀ N ≥ N0,
      ∃ s, runFrames W (stepped S (T / N)) bl tr (State.fresh c) N = some s ∧
        Depends W (stepped S (T / N)) bl tr c N s) := by
  obtain ⟨har, hst, hNd, hNs0, hrad, hmu, u, hu⟩ := listed_facts hTab hW hm hform hw hn hc hf hworks
  refine ⟨fun k s h1 h2 => C98_shipped hTab hdrag one_pos hrad hmu hNd hNs0 hS h2d hst hu hb h1 h2, fun hr => ?_⟩
  obtain ⟨T, hT, X, hF⟩ := (C97_listed hTab hdrag hW hm hform hw hn hc hS h2d hf hworks).1 hr
  obtain ⟨N0, h⟩ := C98_along hTab hdrag one_pos hrad hmu hNd hNs0 hS h2d har hst hu hF hT hb
  refine ⟨T, hT, N0, fun N hN => ?_⟩
  obtain ⟨s, h1, -, h3⟩ := h N hN
  exact ⟨s, h1, h3⟩

/-- **C98** (default range). With the default range, 2, the setups 1 and 3 start with spheres exactly at the range of the near
field, where the answers jump (`C95_jump`); setup 2 does not. -/
theorem C98_default_range : AtRange 2 setup1.config.P ∧ ¬ AtRange 2 setup2.config.P ∧ AtRange 2 setup3.config.P := by
  refine ⟨⟨0, ?_, 1, ?_, by norm_num, ?_⟩, three_range, ⟨0, ?_, 1, ?_, by norm_num, ?_⟩⟩
  · simp [beads, setup1, SetupRows.config]
  · simp [beads, setup1, SetupRows.config]
  · simp [len, centre, radius, setup1, SetupRows.config, Fin.sum_univ_three]
    norm_num
  · simp [beads, setup3, SetupRows.config]
  · simp [beads, setup3, SetupRows.config]
  · simp [len, centre, radius, setup3, SetupRows.config, Fin.sum_univ_three, simple_cubic_8]
    rw [Real.sqrt_sq_eq_abs]
    norm_num

/-! ## Examples -/

/-- Example (b): the Runge-Kutta runs of the three spheres of setup 2 with small enough steps depend continuously on the places
where the spheres start. -/
example : ∃ T > 0, ∃ n0 : ℕ, ∀ n ≥ n0, ∃ s,
    runFrames (listedWorld 1 .fte) (stepped (retimed threeSettings .rk4 1 true) (T / n)) 0 0 (State.fresh setup2.config) n = some s ∧
    Depends (listedWorld 1 .fte) (stepped (retimed threeSettings .rk4 1 true) (T / n)) 0 0 setup2.config n s := by
  have hS : Runnable (retimed threeSettings .rk4 1 true) 0 := by
    have h := threeSettings_ok
    exact ⟨.inr (.inr rfl), h.extract, h.cutoff, one_ne_zero, h.start, h.first, h.pos, h.force, h.temp⟩
  exact (C98_listed (W := listedWorld 1 .fte) (S := retimed threeSettings .rk4 1 true) rfl rfl (listedWorld_ships 1 .fte) (.inl rfl)
    rfl (file := none) (fuel := 0) (w := fun _ => 0) (fun _ => by norm_num) (n := 2) (by norm_num) (c := setup2.config) rfl
    hS rfl (by simp) (by simp [Works]) rfl).2 fun _ => three_range

/-- A sphere dragged along in a flow, with a table that dissipates: all its Adams-Bashforth runs depend continuously on where
it starts, whatever their length. -/
example (V U O c : Vec3) (k : ℕ) : ∃ s,
    runFrames (constWorld { loneUser V U O c 0 with mu := 3 }) (starSettings .ab2 1) 0 0 (State.fresh loneStart) k = some s ∧
    Depends (constWorld { loneUser V U O c 0 with mu := 3 }) (starSettings .ab2 1) 0 0 loneStart k s := by
  have hu : Unchanging (constWorld { loneUser V U O c 0 with mu := 3 }) loneStart { loneUser V U O c 0 with mu := 3 } :=
    fun d f dt v r _ => ⟨_, _, rfl⟩
  have hone : ∀ d : Config, SameSizes loneStart d → ∀ x < beads d.P, x = 0 := fun d hd x hx => by
    have : beads d.P = 1 := by unfold beads; rw [hd.Ns, hd.Nd]; rfl
    omega
  have hS := starSettings_ok (sch := .ab2) (Nd := 0) 1 (.inr (.inl ⟨rfl, rfl⟩))
  have hvis : ∀ j s, runFrames (constWorld { loneUser V U O c 0 with mu := 3 }) (starSettings .ab2 1) 0 0 (State.fresh loneStart) j
      = some s → ∀ d, Visits (constWorld { loneUser V U O c 0 with mu := 3 }) (starSettings .ab2 1) 0 0 j s d → SameSizes loneStart d :=
    fun j s hs d hd => by
      rcases visits_eq.mp hd with rfl | ⟨h, -⟩
      · obtain ⟨z1, z2, z3, z4⟩ := run_sizes hs
        exact ⟨z1, z2, z3, z4⟩
      · cases (show Scheme.ab2 = .rk4 from h)
  have course := course_dissipates dampT_dissipates hS.cutoff rfl rfl (by simp [loneStart, loneP]) (lone_steady V U O c .ab2 1) hu
  obtain ⟨s, hs, -⟩ := run_exists (K := Sound loneStart.P) (S := starSettings .ab2 1) hS loneStart_isLone.arrows rfl k
    (fun j _ s hs _ d hd => by
      have hz := hvis j s hs d hd
      have hr := course.ready (starSettings .ab2 1).timestep hz
        (fun ⟨x, hx, y, hy, hxy, _⟩ => hxy ((hone d hz x hx).trans (hone d hz y hy).symm))
      exact ⟨hr, course.serves _ d hr hz⟩)
  refine ⟨s, hs, C98_depends dampT_dissipates rfl rfl (by simp [loneStart, loneP]) hS rfl (lone_steady V U O c .ab2 1) hu rfl hs
    fun j _ s hs d hd => ?_⟩
  have hz := hvis j s hs d hd
  exact ⟨fun x hx y hy hxy => absurd ((hone d hz x hx).trans (hone d hz y hy).symm) hxy,
    fun _ ⟨x, hx, y, hy, hxy, _⟩ => hxy ((hone d hz x hx).trans (hone d hz y hy).symm)⟩

end SD
