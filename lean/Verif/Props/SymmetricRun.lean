import Verif.Spec.Plane
import Verif.Props.ShippedRun
import Verif.Props.InputSymmetry
import Verif.Props.RenumberRun

/-!
# C91: a simulation keeps the symmetry of its start

A suspension that looks the same after a rigid motion or a reflection, driven by forces and flows that do too, looks the
same for ever. In particular particles in a plane stay in it.
-/

set_option autoImplicit false

namespace SD

open Spec Move Ship

variable {Q : Fin 3 → Fin 3 → ℝ} {t : Vec3} {W W' : World} {S : Settings} {F : Prop}

/-- **C64** (shipped table). A simulation of beads of one size with the table of the project, the full far field and a
fixed viscosity, and the moved simulation: as long as no two beads come closer than 2.001 radii, both programs run
through, and the moved one saves the moved file. -/
theorem C64_shipped (hQ : Orthogonal Q) (hW : MovedWorld F S.input_form Q t W W') (hTab : W.table = shippedTable)
    (hdrag : S.use_drag_Minfinity = false) (hF : FlatOk S Q) {c : Config} {a mu : ℝ} (ha : 0 < a) (hE : EqualBeads c.P a)
    (hmu : ∀ d f dt v r u, W.input_ftsuoe d f dt v r = some u → u.mu = mu) (hS : Runnable S c.P.Nd) (har : Arrows c)
    (hN : 0 < S.num_frames) (hc : Steady W S c) (h0 : ¬ Touching c.P)
    (hT : ∀ d, SameSizes c d → ∀ f dt v r u, W.input_ftsuoe d f dt v r = some u → Traceless u.inp)
    (hno : ∀ u, W.input_ftsuoe c 0 0.1 Vel.blank none = some u →
      ∀ j < S.num_frames, ∀ s, runFrames W S u.bl u.tr (State.fresh c) j = some s → s.error = false →
      ∀ d, Visits W S u.bl u.tr j s d → ¬ Touching d.P) :
    ∃ d, program W S (State.fresh c) = some (some d, none) ∧
      program W' S (State.fresh (movedConfig Q t c)) = some (some (movedSaved Q t d), none) :=
  moved_untouched (K := Stiff c a mu) hQ hW hF (fun _ hd hr => shipped_serves hTab hdrag hS.cutoff ha hE hmu hr hd) hS har hN
    hc h0 hT hno

/-- **C91** (symmetry). The start and the inputs are unchanged by the motion `x ↦ Q x + t` (a rotation or a reflection).
With a table that dissipates, as long as no two beads come closer than 2.001 average radii, the program runs through and
everything it saves is unchanged by the motion. -/
theorem C91_symmetric (hQ : Orthogonal Q) (hW : MovedWorld F S.input_form Q t W W) (hD : TableDissipates W.table)
    (hF : FlatOk S Q) {c : Config} (hsym : movedConfig Q t c = c) (hS : Runnable S c.P.Nd) (ha : Arrows c)
    (hN : 0 < S.num_frames) (hc : Steady W S c) (h0 : ¬ Touching c.P)
    (hT : ∀ d, SameSizes c d → ∀ f dt v r u, W.input_ftsuoe d f dt v r = some u → Traceless u.inp)
    (hno : ∀ u, W.input_ftsuoe c 0 0.1 Vel.blank none = some u →
      ∀ j < S.num_frames, ∀ s, runFrames W S u.bl u.tr (State.fresh c) j = some s → s.error = false →
      ∀ d, Visits W S u.bl u.tr j s d → ¬ Touching d.P) :
    ∃ d, program W S (State.fresh c) = some (some d, none) ∧ movedSaved Q t d = d := by
  obtain ⟨d, h1, h2⟩ := C64_untouched hQ hW hD hF hS ha hN hc h0 hT hno
  rw [hsym, h1] at h2
  exact ⟨d, h1, (Option.some.inj (Prod.mk.inj (Option.some.inj h2)).1).symm⟩

/-- **C91** (symmetry, shipped table). The same with the table of the project, for beads of one size. -/
theorem C91_shipped (hQ : Orthogonal Q) (hW : MovedWorld F S.input_form Q t W W) (hTab : W.table = shippedTable)
    (hdrag : S.use_drag_Minfinity = false) (hF : FlatOk S Q) {c : Config} (hsym : movedConfig Q t c = c)
    {a mu : ℝ} (ha : 0 < a) (hE : EqualBeads c.P a)
    (hmu : ∀ d f dt v r u, W.input_ftsuoe d f dt v r = some u → u.mu = mu) (hS : Runnable S c.P.Nd) (har : Arrows c)
    (hN : 0 < S.num_frames) (hc : Steady W S c) (h0 : ¬ Touching c.P)
    (hT : ∀ d, SameSizes c d → ∀ f dt v r u, W.input_ftsuoe d f dt v r = some u → Traceless u.inp)
    (hno : ∀ u, W.input_ftsuoe c 0 0.1 Vel.blank none = some u →
      ∀ j < S.num_frames, ∀ s, runFrames W S u.bl u.tr (State.fresh c) j = some s → s.error = false →
      ∀ d, Visits W S u.bl u.tr j s d → ¬ Touching d.P) :
    ∃ d, program W S (State.fresh c) = some (some d, none) ∧ movedSaved Q t d = d := by
  obtain ⟨d, h1, h2⟩ := C64_shipped hQ hW hTab hdrag hF ha hE hmu hS har hN hc h0 hT hno
  rw [hsym, h1] at h2
  exact ⟨d, h1, (Option.some.inj (Prod.mk.inj (Option.some.inj h2)).1).symm⟩

/-! ## Particles in a plane -/

/-- The reflection in the plane `y = 0`. -/
def mirrorY : Fin 3 → Fin 3 → ℝ := ![![1, 0, 0], ![0, -1, 0], ![0, 0, 1]]

theorem mirrorY_orth : Orthogonal mirrorY := by
  intro i j
  fin_cases i <;> fin_cases j <;> simp [mirrorY, Fin.sum_univ_three, dlt]

theorem mirrorY_turn (v : Vec3) : turnVec mirrorY v = ![v 0, -v 1, v 2] := by
  funext i
  fin_cases i <;> simp [turnVec, mirrorY, Fin.sum_univ_three]

theorem mirrorY_move (v : Vec3) : movePoint mirrorY 0 v = ![v 0, -v 1, v 2] := by
  funext i
  simp [movePoint, mirrorY_turn]

theorem mirrored_iff {v : Vec3} : ![v 0, -v 1, v 2] = v ↔ v 1 = 0 := by
  constructor
  · intro h
    have := congrFun h 1
    simp at this
    linarith
  · intro h
    funext i
    fin_cases i <;> simp [h]

theorem inPlane_iff {c : Config} : movedConfig mirrorY 0 c = c ↔ InPlane c := by
  obtain ⟨P, r⟩ := c
  obtain ⟨Ns, Nd, ss, sp, ds, dp, dx⟩ := P
  have e : movedConfig mirrorY 0 ⟨⟨Ns, Nd, ss, sp, ds, dp, dx⟩, r⟩
      = ⟨⟨Ns, Nd, ss, fun i => ![sp i 0, -sp i 1, sp i 2], ds, fun i => ![dp i 0, -dp i 1, dp i 2],
          fun i => ![dx i 0, -dx i 1, dx i 2]⟩, fun i j => ![r i j 0, -r i j 1, r i j 2]⟩ := by
    simp only [movedConfig, shift, turned, mirrorY_turn, mirrorY_move, Pi.zero_apply, add_zero]
  rw [e]
  simp only [Config.mk.injEq, PosData.mk.injEq, true_and, funext_iff (f := fun i => ![sp i 0, -sp i 1, sp i 2]),
    funext_iff (f := fun i => ![dp i 0, -dp i 1, dp i 2]), funext_iff (f := fun i => ![dx i 0, -dx i 1, dx i 2])]
  constructor
  · rintro ⟨⟨h1, h2, h3⟩, h4⟩
    exact ⟨fun i => mirrored_iff.mp (h1 i), fun i => ⟨mirrored_iff.mp (h2 i), mirrored_iff.mp (h3 i)⟩,
      fun i j => mirrored_iff.mp (congrFun (congrFun h4 i) j)⟩
  · intro h
    exact ⟨⟨fun i => mirrored_iff.mpr (h.spheres i), fun i => mirrored_iff.mpr (h.dumbs i).1,
      fun i => mirrored_iff.mpr (h.dumbs i).2⟩, funext fun i => funext fun j => mirrored_iff.mpr (h.arrows i j)⟩

theorem map_fixed {α : Type} {g : α → α} {l : List α} (h : l.map g = l) {x : α} (hx : x ∈ l) : g x = x := by
  obtain ⟨i, hi, rfl⟩ := List.getElem_of_mem hx
  have := congrArg (fun m => m[i]?) h
  simpa [hi] using this

theorem forcesInPlane {f : Forces} (h : turnedForces mirrorY f = f) : ForcesInPlane f := by
  obtain ⟨Fa, Fb, DFb, Sa⟩ := f
  simp only [turnedForces, Forces.mk.injEq] at h
  obtain ⟨h1, h2, h3, h4⟩ := h
  have v1 : ∀ {l : List Vec3}, l.map (turnVec mirrorY) = l → ∀ v ∈ l, v 1 = 0 := fun h v hv =>
    mirrored_iff.mp ((mirrorY_turn v).symm.trans (map_fixed h hv))
  refine ⟨v1 h1, ⟨v1 h2, v1 h3⟩, fun m hm => ?_⟩
  have e := map_fixed h4 hm
  have key : ∀ i j, turnMat mirrorY m i j = m i j := fun i j => congrFun (congrFun e i) j
  have k01 := key 0 1
  have k10 := key 1 0
  have k12 := key 1 2
  have k21 := key 2 1
  simp [turnMat, mirrorY, Fin.sum_univ_three] at k01 k10 k12 k21
  refine ⟨?_, ?_, ?_, ?_⟩ <;> linarith

theorem saved_inPlane {d : Saved} (h : movedSaved mirrorY 0 d = d) :
    (∀ c ∈ d.positions, InPlane c) ∧ ∀ f ∈ d.forces, ForcesInPlane f := by
  obtain ⟨p, f⟩ := d
  simp only [movedSaved, Saved.mk.injEq] at h
  exact ⟨fun c hc => inPlane_iff.mp (map_fixed h.1 hc), fun g hg => forcesInPlane (map_fixed h.2 hg)⟩

theorem mirrorY_flat : FlatOk S mirrorY := by
  intro _ j hj
  fin_cases j
  · simp [mirrorY]
  · exact absurd rfl hj
  · simp [mirrorY]

/-- The reflection in the plane `y = 0` keeps what the listed inputs describe. -/
theorem mirrorY_keeps {n : ℕ} {form : InputForm} (hn : n = 1 ∨ n = 3 ∨ n = 4 ∨ n = 5 ∨ n = 6 ∨ n = 7) :
    Keeps n form mirrorY 0 := by
  have hsh : ∀ x, turnVec mirrorY (shearField x) = shearField (turnVec mirrorY x) := by
    intro x
    rw [mirrorY_turn, mirrorY_turn]
    funext i
    fin_cases i <;> simp [shearField]
  have h0 : turnVec mirrorY ![0, 0, 1] = ![0, 0, 1] := by rw [mirrorY_turn]; simp
  have h1 : turnVec mirrorY ![1, 0, 0] = ![1, 0, 0] := by rw [mirrorY_turn]; simp
  have h2 : movePoint mirrorY 0 ![2.25, 0, 2.25] = ![2.25, 0, 2.25] := by rw [mirrorY_move]; simp
  rcases hn with rfl | rfl | rfl | rfl | rfl | rfl
  · exact ⟨h0, fun _ => rfl⟩
  · exact ⟨hsh, h2⟩
  · exact fun _ => rfl
  · exact ⟨h1, fun _ => rfl⟩
  · exact ⟨h1, fun _ => rfl⟩
  · exact ⟨hsh, rfl⟩

/-- **C91** (plane). Particles of one size in the plane `y = 0`, driven by one of the listed inputs with the table of the
project: as long as no two beads come closer than 2.001 radii, the program runs through, and in every saved frame all
particles and their arrows are in the plane, and so are the forces, whether or not the planar mode is on. -/
theorem C91_plane {n : ℕ} {form : InputForm} (hn : n = 1 ∨ n = 3 ∨ n = 4 ∨ n = 5 ∨ n = 6 ∨ n = 7) (hW : Ships n form W)
    (hform : S.input_form = form) (hTab : W.table = shippedTable) (hdrag : S.use_drag_Minfinity = false) {c : Config}
    (hp : InPlane c) {a : ℝ} (ha : 1 / 10 ^ 8 < a) (hE : EqualBeads c.P a) (hS : Runnable S c.P.Nd) (har : Arrows c)
    (hN : 0 < S.num_frames) (hf : formAllowed form c.P.Ns) (hb : S.bead_bead_interactions = true ∨ c.P.Nd = 0)
    (hpp : 0 < c.P.Ns + c.P.Nd) (h6 : n = 6 → c.P.Ns = 99) (hw : Works n form c.P.Ns) (h0 : ¬ Touching c.P)
    (hno : ∀ u, W.input_ftsuoe c 0 0.1 Vel.blank none = some u →
      ∀ j < S.num_frames, ∀ s, runFrames W S u.bl u.tr (State.fresh c) j = some s → s.error = false →
      ∀ d, Visits W S u.bl u.tr j s d → ¬ Touching d.P) :
    ∃ d, program W S (State.fresh c) = some (some d, none) ∧ (∀ e ∈ d.positions, InPlane e) ∧
      ∀ f ∈ d.forces, ForcesInPlane f := by
  have a0 : 0 < a := lt_trans (by norm_num) ha
  have hform3 : form = .fts ∨ form = .fte ∨ form = .ufte := by
    cases form with
    | fts => simp
    | fte => simp
    | ufte => simp
    | ufteu => exact hw.elim
    | duf => exact hw.elim
  have hst : Steady W S c := by
    refine shipped_steady hW hform (fun x hx => by rw [hE x hx]; exact ha) (fun x hx y hy => ?_) hf hb hpp
      (by omega) h6 hw
    rw [hE x hx, hE y hy, div_self a0.ne', hTab]
    exact ⟨1, by simp [shippedTable], by norm_num⟩
  obtain ⟨d, h1, h2⟩ := C91_shipped (t := 0) mirrorY_orth
    (by rw [hform]; exact C68_inputs mirrorY_orth (mirrorY_keeps hn) hform3 hW) hTab hdrag mirrorY_flat (inPlane_iff.mpr hp)
    a0 hE (mu := 1) (fun d f dt v r u hu => by rw [hW] at hu; exact (shipped_box hu).1) hS har hN hst h0
    (fun d _ f dt v r u hu => by rw [hW] at hu; exact shipped_traceless hu) hno
  exact ⟨d, h1, saved_inPlane h2⟩

/-! ## The hypotheses can be met -/

theorem apartStart_inPlane : InPlane apartStart where
  spheres i := by
    by_cases h : i = 0 <;> simp [apartStart, apartP, h]
  dumbs i := by simp [apartStart, apartP]
  arrows i j := by
    by_cases h : i = 0 <;> by_cases hj : j = 0 <;> simp [apartStart, apartP, defaultRots, h, hj]

/-- Two spheres in the plane at a distance at which the near field alone gains energy, sheared for any number of frames
with the shipped table: they stay in the plane. -/
example (sch : Scheme) (hs : sch = .euler ∨ sch = .rk4) (N : ℕ) (hN : 0 < N) : ∃ d,
    program (listedWorld 7 .fts) { calmSettings sch N with invert_m_every := 10 } (State.fresh apartStart)
      = some (some d, none) ∧ (∀ e ∈ d.positions, InPlane e) ∧ ∀ f ∈ d.forces, ForcesInPlane f := by
  obtain ⟨a1, a2, a3, a4, a5, a6, a7, a8, a9⟩ := calmSettings_ok hs N 0
  have hN0 : 0 < apartStart.P.Ns := by simp [apartStart, apartP]
  exact C91_plane (n := 7) (by simp) (listedWorld_ships 7 .fts) rfl rfl rfl apartStart_inPlane (a := 1) (by norm_num)
    (apartP_equal _) ⟨a1, a2, a3, by norm_num, a5, a6, a7, a8, a9⟩ apartStart_arrows hN ⟨by omega, by simp⟩ (.inl rfl)
    (by omega) (by simp) (show 1 ≤ 7 ∧ 7 ≤ 7 ∧ _ from ⟨by omega, by omega, by omega⟩) apartStart_apart
    fun u hu j _ s hrun he d hv => never_touching (listedWorld_ships 7 .fts) rfl hs rfl hN0 apartStart_apart hu hrun he hv

/-- Half a turn about the axis `y`. -/
def halfTurnY : Fin 3 → Fin 3 → ℝ := ![![-1, 0, 0], ![0, 1, 0], ![0, 0, -1]]

theorem halfTurnY_orth : Orthogonal halfTurnY := by
  intro i j
  fin_cases i <;> fin_cases j <;> simp [halfTurnY, Fin.sum_univ_three, dlt]

theorem halfTurnY_keeps {form : InputForm} : Keeps 7 form halfTurnY 0 := by
  refine ⟨fun x => ?_, rfl⟩
  funext i
  fin_cases i <;> simp [turnVec, halfTurnY, Fin.sum_univ_three, shearField]

/-- The same two spheres after half a turn about `y`: the file is the turned file. -/
example (sch : Scheme) (hs : sch = .euler ∨ sch = .rk4) (N : ℕ) (hN : 0 < N) : ∃ d,
    program (listedWorld 7 .fts) (calmSettings sch N) (State.fresh apartStart) = some (some d, none) ∧
    program (listedWorld 7 .fts) (calmSettings sch N) (State.fresh (movedConfig halfTurnY 0 apartStart))
      = some (some (movedSaved halfTurnY 0 d), none) := by
  have hN0 : 0 < apartStart.P.Ns := by simp [apartStart, apartP]
  have hT : (listedWorld 7 .fts).table = shippedTable := rfl
  refine C64_shipped halfTurnY_orth (C68_inputs halfTurnY_orth halfTurnY_keeps (.inl rfl) (listedWorld_ships 7 .fts)) hT rfl
    (fun h => absurd h (by simp [calmSettings, starSettings, loneSettings])) one_pos (apartP_equal _) (mu := 1)
    (fun d f dt v r u hu => by rw [listedWorld_ships] at hu; exact (shipped_box hu).1) (calmSettings_ok hs N 0) apartStart_arrows hN
    (shipped_steady (listedWorld_ships 7 .fts) rfl (fun x hx => ?_) (fun x hx y hy => ?_) ⟨by omega, by simp⟩ (.inl rfl)
      (by omega) (by omega) (by omega) (show 1 ≤ 7 ∧ 7 ≤ 7 ∧ _ from ⟨by omega, by omega, by omega⟩))
    apartStart_apart (fun d _ f dt v r u hu => by rw [listedWorld_ships] at hu; exact shipped_traceless hu)
    fun u hu j _ s hrun he d hv => never_touching (listedWorld_ships 7 .fts) rfl hs rfl hN0 apartStart_apart hu hrun he hv
  · have e : radius apartStart.P x = 1 := apartP_equal _ x hx
    rw [e]; norm_num
  · have ex : radius apartStart.P x = 1 := apartP_equal _ x hx
    have ey : radius apartStart.P y = 1 := apartP_equal _ y hy
    rw [ex, ey, hT]
    exact ⟨1, by simp [shippedTable], by norm_num⟩

/-- Two spheres in a plane with a table that dissipates, in the same shear: everything is its own mirror image. -/
example (sch : Scheme) (hs : sch = .euler ∨ sch = .rk4) (N : ℕ) (hN : 0 < N) : ∃ d,
    program (shippedWorld 7 .fts) (calmSettings sch N) (State.fresh apartStart) = some (some d, none) ∧
      movedSaved mirrorY 0 d = d := by
  have hN0 : 0 < apartStart.P.Ns := by simp [apartStart, apartP]
  refine C91_symmetric mirrorY_orth
    (C68_inputs mirrorY_orth (mirrorY_keeps (by simp)) (.inl rfl) (shippedWorld_ships 7 .fts)) dampT_dissipates
    mirrorY_flat (inPlane_iff.mpr apartStart_inPlane) (calmSettings_ok hs N 0) apartStart_arrows hN
    (shipped_steady (shippedWorld_ships 7 .fts) rfl (fun x hx => ?_) (fun x hx y hy => ?_) ⟨by omega, by simp⟩ (.inl rfl)
      (by omega) (by omega) (by omega) (show 1 ≤ 7 ∧ 7 ≤ 7 ∧ _ from ⟨by omega, by omega, by omega⟩))
    apartStart_apart (fun d _ f dt v r u hu => by rw [shippedWorld_ships] at hu; exact shipped_traceless hu)
    fun u hu j _ s hrun he d hv => never_touching (shippedWorld_ships 7 .fts) rfl hs rfl hN0 apartStart_apart hu hrun he hv
  · have e : radius apartStart.P x = 1 := apartP_equal _ x hx
    rw [e]; norm_num
  · have ex : radius apartStart.P x = 1 := apartP_equal _ x hx
    have ey : radius apartStart.P y = 1 := apartP_equal _ y hy
    rw [ex, ey]
    exact ⟨1, by simp [shippedWorld, constWorld, dampT], by norm_num⟩

/-- A listed setup in the plane. -/
example : InPlane setup4.config where
  spheres i := by
    match i with
    | 0 => simp [setup4, SetupRows.config]
    | 1 => simp [setup4, SetupRows.config]
    | i + 2 => simp [setup4, SetupRows.config]
  dumbs i := by
    match i with
    | 0 => simp [setup4, SetupRows.config]
    | 1 => simp [setup4, SetupRows.config]
    | i + 2 => simp [setup4, SetupRows.config]
  arrows i j := by
    match i with
    | 0 => by_cases hj : j = 0 <;> simp [setup4, SetupRows.config, defaultRots, hj]
    | 1 => by_cases hj : j = 0 <;> simp [setup4, SetupRows.config, defaultRots, hj]
    | i + 2 => by_cases hj : j = 0 <;> simp [setup4, SetupRows.config, defaultRots, hj]

end SD
