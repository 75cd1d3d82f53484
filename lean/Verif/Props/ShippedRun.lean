import Verif.Props.ShippedSolve
import Verif.Props.Setups
import Verif.Props.ListedForces

/-!
# C88: runs with the shipped table
-/

set_option autoImplicit false

namespace SD

open Spec Move Ship

variable {W : World} {S : Settings}

/-- A cached inverse that resists straining. -/
structure Stiff (c : Config) (a mu : ℝ) (C : NDMat) : Prop where
  sound : Sound c.P C
  strain : ∀ v : ℕ → ℝ, 8 / 3 * Real.pi * mu * a ^ 3 *
      ∑ x ∈ Finset.range c.P.Ns, ∑ p : Fin 5, v (row c.P.Ns x (.s p)) ^ 2
    ≤ ∑ i ∈ Finset.range (side c.P), v i * mulVec (side c.P) C.get v i

theorem Stiff.of_sizes {c d : Config} (h : SameSizes c d) {a mu : ℝ} {C : NDMat} (hC : Stiff c a mu C) :
    Stiff d a mu C := by
  refine ⟨hC.sound.of_counts h.Ns h.Nd, ?_⟩
  have e : side d.P = side c.P := by unfold side; rw [h.Ns, h.Nd]
  rw [e, h.Ns]
  exact hC.strain

/-- The near field of equal beads added to a cached inverse, perhaps that of other positions of the same beads. -/
theorem stiff_add {d : Config} {a mu : ℝ} (ha : 0 < a) (hE : EqualBeads d.P a) (hP : Sensible d.P) (hS : Separate d.P)
    {k : ℝ} (hk : 0 < k) (hmu : 0 < mu) (bb : Bool) {C : NDMat} (hC : Stiff d a mu C) :
    ∃ N, generate_R2Bexact shippedTable d.P k mu bb = some N ∧ Sound d.P (N.add C) := by
  obtain ⟨N, hN, n1, n2, n3, n4⟩ := C86_near ha hE hP hS hk hmu.le bb
  refine ⟨N, hN, n1, n2, fun i j => ?_, ?_⟩
  · show N.get i j + C.get i j = N.get j i + C.get j i
    rw [n3 i j, hC.sound.symm i j]
  have hadd : ∀ (w : ℕ → ℝ) (i : ℕ), mulVec (side d.P) (N.add C).get w i
      = mulVec (side d.P) N.get w i + mulVec (side d.P) C.get w i := by
    intro w i
    unfold mulVec
    rw [← Finset.sum_add_distrib]
    exact Finset.sum_congr rfl fun j _ => by simp only [NDMat.add]; ring
  rw [posDef_iff]
  intro w hw
  have h1 := posDef_iff.mp hC.sound.pos w hw
  have h2 := hC.strain w
  have h3 := n4 w
  have pos : 0 ≤ Real.pi * mu * a ^ 3 * ∑ x ∈ Finset.range d.P.Ns, ∑ p : Fin 5, w (row d.P.Ns x (.s p)) ^ 2 := by
    have := Real.pi_pos
    have : 0 ≤ ∑ x ∈ Finset.range d.P.Ns, ∑ p : Fin 5, w (row d.P.Ns x (.s p)) ^ 2 :=
      Finset.sum_nonneg fun x _ => Finset.sum_nonneg fun p _ => sq_nonneg _
    positivity
  simp only [hadd, mul_add, Finset.sum_add_distrib]
  nlinarith

theorem equal_of_sizes {c d : Config} (h : SameSizes c d) {a : ℝ} (hE : EqualBeads c.P a) : EqualBeads d.P a := by
  obtain ⟨e1, e2⟩ := same_beads h
  intro x hx
  rw [e2]
  exact hE x (e1 ▸ hx)

theorem shipped_serves (hT : W.table = shippedTable) (hdrag : S.use_drag_Minfinity = false) (hk : 0 < S.cutoff_factor)
    {c d : Config} {a mu : ℝ} (ha : 0 < a) (hE : EqualBeads c.P a)
    (hmu : ∀ d f dt v r u, W.input_ftsuoe d f dt v r = some u → u.mu = mu) (hd : Ready W S d) (h : SameSizes c d) :
    Serves W S (Stiff c a mu) d := by
  intro f lv u last reg hu hl
  obtain ⟨u', hu', -, -, hpos, -⟩ := hd.answers f S.timestep lv none
  obtain rfl : u = u' := by rw [hu] at hu'; exact Option.some.inj hu'
  have hm := hmu _ _ _ _ _ _ hu
  rw [hm] at hpos ⊢
  rw [hT, hdrag]
  have hE' := equal_of_sizes h hE
  have hback : SameSizes d c := ⟨h.Ns.symm, h.Nd.symm, h.spheres.symm, h.dumbs.symm⟩
  obtain ⟨C, hC, hst⟩ : ∃ C, (if false = false then if reg then (generate_Minfinity d.P mu
      S.bead_bead_interactions).inv else some last else some (NDMat.smul mu (npDiag (dragDiagonal d.P)))) = some C ∧
      Stiff d a mu C := by
    rw [if_pos rfl]
    cases reg
    · exact ⟨last, rfl, (hl hdrag rfl).of_sizes h⟩
    · obtain ⟨C, hC, hr, hc, hp⟩ := C59_inverse hd.sensible hd.separate hpos hd.beads
      obtain ⟨C', hC', hf⟩ := C86_far hd.sensible hd.separate hpos hd.beads
      obtain rfl : C = C' := by rw [hC] at hC'; simpa using hC'
      refine ⟨C, hC, ⟨hr, hc, inv_symm hC (Minfinity_symm d.P mu S.bead_bead_interactions), hp⟩, fun v => ?_⟩
      refine le_trans (le_of_eq ?_) (hf v)
      rw [mul_assoc, Finset.mul_sum]
      congr 1
      refine Finset.sum_congr rfl fun x hx => ?_
      rw [hE' x (by have := Finset.mem_range.mp hx; unfold beads; omega)]
  unfold generate_grand_resistance_matrix
  rw [hC, Option.bind_eq_bind, Option.bind_some]
  cases S.use_Minfinity_only
  · obtain ⟨N, hN, hs⟩ := stiff_add ha hE' hd.sensible hd.separate hk hpos S.bead_bead_interactions hst
    rw [if_pos rfl, hN]
    exact ⟨_, _, rfl, hs, hst.of_sizes hback⟩
  · exact ⟨_, _, rfl, hst.sound, hst.of_sizes hback⟩

/-- **C88** (why a run stops). Beads of one size, the shipped table, the full far field and a fixed viscosity: with
inputs that are in order and from a start without touching beads, the program is stopped by an exception only in a frame
in which two beads come closer than 2.001 radii, however rarely the far field is inverted anew. -/
theorem C88_stops (hT : W.table = shippedTable) (hdrag : S.use_drag_Minfinity = false) {c : Config} {a mu : ℝ} (ha : 0 < a)
    (hE : EqualBeads c.P a) (hmu : ∀ d f dt v r u, W.input_ftsuoe d f dt v r = some u → u.mu = mu)
    (hS : Runnable S c.P.Nd) (har : Arrows c) (hN : 0 < S.num_frames) (hc : Steady W S c) (h0 : ¬ Touching c.P)
    (h : program W S (State.fresh c) = none) :
    ∃ u, W.input_ftsuoe c 0 0.1 Vel.blank none = some u ∧
      ∃ j < S.num_frames, ∃ s, runFrames W S u.bl u.tr (State.fresh c) j = some s ∧ s.error = false ∧
        ∃ d, Visits W S u.bl u.tr j s d ∧ SameSizes c d ∧ Touching d.P := by
  by_contra hno
  have hr : Ready W S c := steady_ready hc ⟨rfl, rfl, rfl, rfl⟩ h0
  obtain ⟨d, hd⟩ := program_exists (K := Stiff c a mu) hS har hN hr (by
    intro u hu j hj s hs he d hv
    have hz := run_sizes hs
    have hsz : SameSizes c d := SameSizes.trans ⟨hz.1, hz.2.1, hz.2.2.1, hz.2.2.2⟩ (visits_sizes hv)
    have hrd : Ready W S d := steady_ready hc hsz fun ht => hno ⟨u, hu, j, hj, s, hs, he, d, hv, hsz, ht⟩
    exact ⟨hrd, shipped_serves hT hdrag hS.cutoff ha hE hmu hrd hsz⟩)
  rw [h] at hd
  exact absurd hd (by simp)

/-- **C88** (listed setups and inputs). A run with the shipped table from one of the setups 1 to 3, with an input of
`setups/inputs.py` that works without a periodic box, stops early only because two spheres have come to touch. -/
theorem C88_setups {m : ℕ} {form : InputForm} (hT : W.table = shippedTable) (hdrag : S.use_drag_Minfinity = false)
    (hW : Ships m form W) (hS : S.input_form = form) {file : Option Saved} {fuel : ℕ} {w : ℕ → ℝ} (hw : Stream w) {n : ℕ}
    (hn : n ≤ 3) {c : Config} (hc : pos_setup file fuel w n = .ok c) (hR : Runnable S c.P.Nd) (hk : 0 < S.num_frames)
    (hf : form ≠ .duf) (h2 : m ≠ 2) (h6 : m ≠ 6) (hm : Works m form c.P.Ns)
    (h : program W S (State.fresh c) = none) :
    ∃ u, W.input_ftsuoe c 0 0.1 Vel.blank none = some u ∧
      ∃ j < S.num_frames, ∃ s, runFrames W S u.bl u.tr (State.fresh c) j = some s ∧ s.error = false ∧
        ∃ d, Visits W S u.bl u.tr j s d ∧ SameSizes c d ∧ Touching d.P := by
  obtain ⟨ha, hst⟩ := setup_steady hW hS hw (by omega : n ≤ 4) hc (by rw [hT]; simp [shippedTable])
    (fun h => absurd h (by omega)) (.inr (by omega)) hf h2 h6 hm
  refine C88_stops hT hdrag one_pos (fun x hx => ?_) (mu := 1) (fun d f dt v r u hu => ?_) hR ha hk hst
    (C72_room hw (by omega) hc).2.2.2 h
  · rcases setup_radii hw (by omega) hc hx with e | ⟨-, e⟩
    · exact e
    · omega
  · rw [hW] at hu
    exact (shipped_box hu).1

/-- **C88** (without end). In the shear flow of input 7 with prescribed stresslets, beads of one size, among them a
sphere, that start without touching are simulated with the shipped table to the end, however many frames are asked
for. -/
theorem C88_endless (hT : W.table = shippedTable) (hdrag : S.use_drag_Minfinity = false) (hW : Ships 7 .fts W)
    (hform : S.input_form = .fts) {c : Config} {a : ℝ} (ha : 1 / 10 ^ 8 < a) (hE : EqualBeads c.P a)
    (hR : Runnable S c.P.Nd) (hsch : S.scheme = .euler ∨ S.scheme = .rk4) (h2d : S.fully_2d_problem = false)
    (har : Arrows c) (hk : 0 < S.num_frames) (hb : S.bead_bead_interactions = true ∨ c.P.Nd = 0) (hN : 0 < c.P.Ns)
    (h0 : ¬ Touching c.P) : ∃ out, program W S (State.fresh c) = some out := by
  have a0 : 0 < a := lt_trans (by norm_num) ha
  refine endless_of hW hform hsch h2d hN h0 fun h => C88_stops hT hdrag a0 hE (mu := 1) (fun d f dt v r u hu => ?_) hR har hk
    (shipped_steady hW hform (fun x hx => by rw [hE x hx]; exact ha) (fun x hx y hy => ?_) ⟨by omega, by simp⟩ hb (by omega)
      (by omega) (by omega) (show 1 ≤ 7 ∧ 7 ≤ 7 ∧ _ from ⟨by omega, by omega, by omega⟩)) h0 h
  · rw [hW] at hu
    exact (shipped_box hu).1
  · rw [hE x hx, hE y hy, div_self a0.ne', hT]
    exact ⟨1, by simp [shippedTable], by norm_num⟩

/-! ## The hypotheses can be met -/

/-- The world of input number `n`, with the shipped table. -/
noncomputable def listedWorld (n : ℕ) (form : InputForm) : World :=
  { shippedWorld n form with table := shippedTable }

theorem listedWorld_ships (n : ℕ) (form : InputForm) : Ships n form (listedWorld n form) := fun _ _ _ _ _ => rfl

/-- Two spheres at a distance at which the near field alone gains energy, with their arrows. -/
noncomputable def apartStart : Config := ⟨apartP 2.015, defaultRots (apartP 2.015).spherePos (apartP 2.015).sphereSize⟩

theorem apartStart_apart : ¬ Touching apartStart.P := by
  rintro ⟨x, hx, y, hy, hxy, h⟩
  exact absurd (apartP_separate (by norm_num) x hx y hy hxy) (not_le.mpr h)

theorem apartStart_arrows : Arrows apartStart := by
  intro i _ j h
  have h0 := congrFun h 0
  have h2 := congrFun h 2
  by_cases hj : j = 0 <;> simp [apartStart, defaultRots, apartP, hj] at h0 h2

/-- They are sheared for any number of frames, and the far field may be inverted anew only every tenth. -/
example (sch : Scheme) (hs : sch = .euler ∨ sch = .rk4) (N : ℕ) (hN : 0 < N) :
    ∃ out, program (listedWorld 7 .fts) { calmSettings sch N with invert_m_every := 10 } (State.fresh apartStart)
      = some out := by
  obtain ⟨a1, a2, a3, a4, a5, a6, a7, a8, a9⟩ := calmSettings_ok hs N 0
  exact C88_endless rfl rfl (listedWorld_ships 7 .fts) rfl (by norm_num) (apartP_equal _)
    ⟨a1, a2, a3, by norm_num, a5, a6, a7, a8, a9⟩ hs rfl apartStart_arrows hN (.inl rfl) (by simp [apartStart, apartP])
    apartStart_apart

/-- Three spheres falling from setup 2 can only be stopped by spheres that touch. -/
example (N : ℕ) (hN : 0 < N)
    (h : program (listedWorld 1 .fts) (formSettings .fts N) (State.fresh setup2.config) = none) :
    ∃ u, (listedWorld 1 .fts).input_ftsuoe setup2.config 0 0.1 Vel.blank none = some u ∧
      ∃ j < N, ∃ s, runFrames (listedWorld 1 .fts) (formSettings .fts N) u.bl u.tr
          (State.fresh setup2.config) j = some s ∧ s.error = false ∧
        ∃ d, Visits (listedWorld 1 .fts) (formSettings .fts N) u.bl u.tr j s d ∧
          SameSizes setup2.config d ∧ Touching d.P :=
  C88_setups (n := 2) (file := none) (fuel := 0) (w := fun _ => 0) rfl rfl (listedWorld_ships 1 .fts) rfl
    (fun _ => ⟨le_rfl, zero_lt_one⟩) (by norm_num) rfl (formSettings_ok _ N _) hN
    (by simp) (by norm_num) (by norm_num)
    (show 1 ≤ 1 ∧ 1 ≤ 7 ∧ (setup2.config.P.Ns = 0 → 1 = 3 ∨ 1 = 7) from
      ⟨le_rfl, by norm_num, fun h => absurd h (by simp [setup2, SetupRows.config])⟩) h

end SD
