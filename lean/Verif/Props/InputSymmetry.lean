import Verif.Lemmas.InputSymmetry
import Verif.Lemmas.Origin
import Verif.Props.Moved
import Verif.Props.ShippedInputs

/-!
# C68: the symmetries of the project's own inputs
-/

set_option autoImplicit false

namespace SD

open Spec Ship Move

variable {n : ℕ} {form : InputForm} {W : World} {S : Settings} {Q : Fin 3 → Fin 3 → ℝ} {t : Vec3}

/-- **C68** (inputs). Asked about a configuration moved by a motion that keeps gravity, or the flow, or the direction of
pulling, the project's input function answers with the moved values. -/
theorem C68_inputs (hQ : Orthogonal Q) (hk : Keeps n form Q t) (hform : form = .fts ∨ form = .fte ∨ form = .ufte)
    (hW : Ships n form W) : MovedWorld (form = .fts ∨ n = 3 ∨ n = 7) form Q t W W where
  table := rfl
  input c f dt v r r' u _ hu := by
    rw [hW] at hu
    obtain ⟨u', h1, h2⟩ := input_moved hQ hk hform hu
    exact ⟨u', by rw [hW]; exact h1, h2⟩

/-- **C68** (runs). Two simulations with the same listed input, started from two configurations that differ by a motion
that keeps what the input describes, save files that differ by that motion, as long as no two beads come closer than
2.001 average radii: positions, orientations, forces and stresslets, in every frame. -/
theorem C68_runs (hQ : Orthogonal Q) (hk : Keeps n form Q t) (hW : Ships n form W) (hf' : S.input_form = form)
    (hD : TableDissipates W.table) (hF : FlatOk S Q) {c : Config} (hS : Runnable S c.P.Nd) (ha : Arrows c)
    (hN : 0 < S.num_frames) (hr : ∀ x < beads c.P, 1 / 10 ^ 8 < radius c.P x)
    (hl : ∀ x < beads c.P, ∀ y < beads c.P, ∃ t ∈ W.table.lam,
      |t - radius c.P y / radius c.P x| ≤ 1 / 10 ^ 8 + 1 / 10 ^ 5 * |radius c.P y / radius c.P x|)
    (hf : formAllowed form c.P.Ns) (hb : S.bead_bead_interactions = true ∨ c.P.Nd = 0)
    (hp : 0 < c.P.Ns + c.P.Nd) (h6 : n = 6 → c.P.Ns = 99) (hw : Works n form c.P.Ns) (h0 : ¬ Touching c.P)
    (hno : ∀ u, W.input_ftsuoe c 0 0.1 Vel.blank none = some u →
      ∀ j < S.num_frames, ∀ s, runFrames W S u.bl u.tr (State.fresh c) j = some s → s.error = false →
      ∀ d, Visits W S u.bl u.tr j s d → ¬ Touching d.P) :
    ∃ d, program W S (State.fresh c) = some (some d, none) ∧
      program W S (State.fresh (movedConfig Q t c)) = some (some (movedSaved Q t d), none) := by
  have h2 : n ≠ 2 := by
    rintro rfl
    exact hk
  have hform : form = .fts ∨ form = .fte ∨ form = .ufte := by
    cases form with
    | fts => simp
    | fte => simp
    | ufte => simp
    | ufteu => exact hw.elim
    | duf => exact hw.elim
  refine C64_untouched hQ (by rw [hf']; exact C68_inputs hQ hk hform hW) hD hF hS ha hN
    (shipped_steady hW hf' hr hl hf hb hp h2 h6 hw) h0 ?_ hno
  intro d _ f dt v r u hu
  rw [hW] at hu
  exact shipped_traceless hu

/-- **C68** (gravity). The motions that the gravity input keeps are exactly those that keep the vertical. -/
theorem C68_gravity {F : Prop} (hform : form = .fts ∨ form = .fte ∨ form = .ufte) (hQ : Orthogonal Q)
    (hF : F ↔ form = .fts) (hW : Ships 1 form W) :
    MovedWorld F form Q t W W ↔ turnVec Q ![0, 0, 1] = ![0, 0, 1] ∧ (form = .fts → t = 0) := by
  constructor
  · intro h
    obtain ⟨u', h1, h2⟩ := h.input starStart 0 0 Vel.blank none none _ rfl (by rw [hW, gravity_input])
    rw [hW, gravity_input] at h1
    obtain rfl := Option.some.inj h1
    constructor
    · have e := congrArg Inputs.Fa h2.inp
      change [num3 ![0, 0, -1]] = [rows (turning Q).F (num3 ![0, 0, -1]) (num3 ![0, 0, -1])] at e
      rw [rows_num] at e
      have e := num3_inj (List.cons.inj e).1
      change ![0, 0, -1] = turnVec Q ![0, 0, -1] at e
      have a : ∀ v : Vec3, turnVec Q (-v) = -turnVec Q v := fun v => by
        funext i
        simp only [turnVec, Pi.neg_apply, mul_neg, Finset.sum_neg_distrib]
      have b : (![0, 0, -1] : Vec3) = -![0, 0, 1] := by
        funext i
        fin_cases i <;> simp
      rw [b, a] at e
      exact (neg_inj.mp e).symm
    · intro hf
      have e := h2.centre (hF.mpr hf)
      change (0 : Vec3) = movePoint Q t 0 at e
      funext i
      have := congrFun e i
      simp [movePoint, turnVec] at this
      exact this.symm
  · rintro ⟨h1, h2⟩
    have := C68_inputs (n := 1) hQ ⟨h1, h2⟩ hform hW
    simpa [hF] using this

/-- **C68** (origin). Prescribing forces and stresslets, the program adds to the velocity of a sphere what its own
strain gives at its distance from the origin: moving the whole suspension by `t` changes the velocity of sphere `i` by
`Eᵢ t`. -/
theorem C68_origin (hW : Ships 1 form W) {c c' : Config} (hc : c'.P = shift c.P t) {f : ℝ} {last : NDMat}
    {reg : Bool} {lv : Vel} {st : Stage} (h : generate_output_FTSUOE W S c f last reg lv = some st) {v : Vel}
    (hv : stageVel c st st.out.Ea = some v) :
    ∃ v', generate_output_FTSUOE W S c' f last reg lv = some st ∧ stageVel c' st st.out.Ea = some v' ∧
      ∀ i < c.P.Ns, v'.Oa i = v.Oa i ∧ v'.Ua i = fun k => v.Ua i k + app (st.out.Ea.getD i 0) t k := by
  obtain ⟨u, R, u2, h1, h2, h3, h4, h5, e1, e2, e3, -, -⟩ := output_some h
  have hO : st.O = 0 := by
    by_cases he : S.input_form = .fte
    · obtain ⟨R', -, h⟩ := h4 he
      rw [hW, gravity_input] at h
      rw [e2, ← Option.some.inj h]
      rfl
    · rw [hW, gravity_input] at h1
      rw [e2, h3 he, ← Option.some.inj h1]
      rfl
  unfold stageVel at hv
  by_cases g1 : 0 < c.P.Ns ∧ st.out.Ea.length < c.P.Ns
  · rw [if_pos g1] at hv
    exact absurd hv (by simp)
  rw [if_neg g1] at hv
  by_cases g2 : 0 < c.P.Nd ∧ st.out.Ea = []
  · rw [if_pos g2] at hv
    exact absurd hv (by simp)
  rw [if_neg g2] at hv
  obtain rfl := Option.some.inj hv
  refine ⟨_, by rw [gravity_stage hW c c' t hc, h], by
    unfold stageVel
    rw [if_neg (by rw [hc]; exact g1), if_neg (by rw [hc]; exact g2)], fun i hi => ?_⟩
  have p0 : 0 < c.P.Ns := by omega
  have p1 : 0 < c'.P.Ns := by rw [hc]; exact p0
  simp only [if_pos p0, if_pos p1]
  refine ⟨funext fun k => ?_, funext fun k => ?_⟩
  · rw [(C31_spheres _ _ _ _ _ _ _ _ _).2, (C31_spheres _ _ _ _ _ _ _ _ _).2]
  · rw [(C31_spheres _ _ _ _ _ _ _ _ _).1, (C31_spheres _ _ _ _ _ _ _ _ _).1, hO, hc]
    simp only [affineFlow, cross, app, dotp, shift, asArrM]
    fin_cases k <;> simp <;> ring

/-- **C68** (origin matters). Two equal spheres falling one above the other, forces and stresslets prescribed, far field
only: moving both spheres by the same `t` changes the velocity of the lower one. -/
theorem C68_origin_matters : ∃ (c : Config) (st : Stage) (t : Vec3) (c' : Config) (v v' : Vel),
    ¬ Touching c.P ∧ c' = movedConfig dlt t c ∧
    generate_output_FTSUOE (shippedWorld 1 .fts) (towerSettings 1) c 0 (NDMat.zeros 1 1) true Vel.blank = some st ∧
    generate_output_FTSUOE (shippedWorld 1 .fts) (towerSettings 1) c' 0 (NDMat.zeros 1 1) true Vel.blank = some st ∧
    stageVel c st st.out.Ea = some v ∧ stageVel c' st st.out.Ea = some v' ∧ v'.Ua 0 ≠ v.Ua 0 := by
  have hk : (0 : ℝ) < (towerSettings 1).cutoff_factor := by norm_num [towerSettings, loneSettings]
  obtain ⟨R, C, hG, -, -, hs⟩ := C59_solvable (T := dampT) towerP_sensible towerP_separate hk
    (towerP_tabulated _) (mu := 1) one_pos (bb := true) (.inl rfl) true (by simp) (NDMat.zeros 1 1)
  obtain ⟨u, hu, hcomp⟩ := (C66_complete (n := 1) (form := .fts) (P := towerP) ⟨by simp [towerP], by simp⟩
    (by simp [towerP]) (by simp) (by simp) 0 0).mpr (by simp [Works, towerP])
  rw [gravity_input] at hu
  obtain rfl := Option.some.inj hu
  obtain ⟨out, ho⟩ := hs (form := .fts) (inp := towerInp) ⟨by simp [towerP], by simp⟩ towerInp_sized hcomp
  have hE := tower_strained hk hG ho
  obtain ⟨i, j, hij⟩ : ∃ i j, out.Ea.getD 0 0 i j ≠ 0 := by
    by_contra hne
    push Not at hne
    exact hE (funext fun i => funext fun j => hne i j)
  set c : Config := ⟨towerP, defaultRots towerP.spherePos towerP.sphereSize⟩ with hc
  have hst : generate_output_FTSUOE (shippedWorld 1 .fts) (towerSettings 1) c 0 (NDMat.zeros 1 1) true Vel.blank
      = some { out := out, cache := C, U := 0, O := 0, centre := 0, Ot := 0, Et := 0 } := by
    unfold generate_output_FTSUOE
    rw [shippedWorld_ships, gravity_input, Option.bind_eq_bind, Option.bind_some]
    have hR : stageResistance (shippedWorld 1 .fts) (towerSettings 1) c (NDMat.zeros 1 1) true
        { defaultUserInput .fts towerP with inp := towerInp } = some (R, C) := by
      unfold stageResistance
      rw [if_neg (fun h => h fun k => sub_self _)]
      exact hG
    erw [hR]
    rw [Option.bind_eq_bind, Option.bind_some]
    dsimp only
    rw [if_neg (by simp [towerSettings]), Option.bind_eq_bind, Option.bind_some]
    erw [ho]
    rfl
  have hl : 2 ≤ out.Ea.length := by
    obtain ⟨hd, -⟩ := grand_dims towerP_sensible hk (towerP_tabulated _) (by simp) hG
    exact (C05_fts_correct towerInp_sized hd.1 ho).1.Ea
  obtain ⟨v, hv⟩ : ∃ v, stageVel c { out := out, cache := C, U := 0, O := 0, centre := 0, Ot := 0, Et := 0 } out.Ea
      = some v := by
    unfold stageVel
    rw [if_neg (by simp only [hc, towerP]; omega), if_neg (by simp [hc, towerP])]
    exact ⟨_, rfl⟩
  have hP : (movedConfig dlt (unit j) c).P = shift c.P (unit j) := by
    have : turned c.P dlt = c.P := by
      have e : ∀ x : Vec3, turnVec dlt x = x := fun x => by
        funext i
        simp [turnVec, dlt]
      simp only [turned, e]
    show shift (turned c.P dlt) _ = _
    rw [this]
  obtain ⟨v', g1, g2, g3⟩ := C68_origin (shippedWorld_ships 1 .fts) hP hst hv
  refine ⟨c, _, unit j, _, v, v', ?_, rfl, hst, g1, hv, g2, ?_⟩
  · rintro ⟨x, hx, y, hy, hxy, h⟩
    exact absurd (towerP_separate x hx y hy hxy) (not_le.mpr h)
  · rw [(g3 0 (by simp [hc, towerP])).2]
    intro e
    have := congrFun e i
    simp only [add_eq_left] at this
    have h2 : ∀ E : Mat3, app E (unit j) i = E i j := fun E => by
      fin_cases j <;> simp [app, dotp, unit, dlt]
    rw [h2] at this
    exact hij this

/-! ## The hypotheses can be met -/

theorem mirror_keeps (t : Vec3) : Keeps 1 .fte mirrorXY t := by
  refine ⟨?_, by simp⟩
  funext i
  fin_cases i <;> simp [turnVec, mirrorXY, Fin.sum_univ_three]

/-- One Euler frame with near and far field, forces prescribed. -/
noncomputable def fallSettings : Settings := { starSettings .euler 1 with input_form := .fte }

/-- A sphere between two dumbbells falls; the same from elsewhere and in a vertical mirror. -/
example (t : Vec3) : ∃ d,
    program (shippedWorld 1 .fte) fallSettings (State.fresh starStart) = some (some d, none) ∧
    program (shippedWorld 1 .fte) fallSettings (State.fresh (movedConfig mirrorXY t starStart))
      = some (some (movedSaved mirrorXY t d), none) := by
  have hst := star_steady 0 0 0 .rk4 1
  have hok := starSettings_ok (sch := .euler) (Nd := starStart.P.Nd) 1 (.inl rfl)
  refine C68_runs mirror_orth (mirror_keeps t) (shippedWorld_ships 1 .fte) rfl dampT_dissipates
    (fun h => by simp [fallSettings, starSettings, loneSettings] at h)
    ⟨hok.1, hok.2, hok.3, hok.4, hok.5, hok.6, hok.7, hok.8, hok.9⟩
    starStart_arrows (by simp [fallSettings, starSettings, loneSettings])
    hst.radii hst.ratios ⟨by simp [starStart, starP], by simp⟩ (.inl rfl) (by simp [starStart, starP]) (by omega)
    (show 1 ≤ 1 ∧ 1 ≤ 7 by omega) star_apart ?_
  intro u _ j hj s hs _ d hv
  obtain rfl : j = 0 := by simpa [fallSettings, starSettings, loneSettings] using hj
  obtain rfl := Option.some.inj hs
  rcases hv with rfl | ⟨h, -⟩
  · exact star_apart
  · simp [fallSettings, starSettings, loneSettings] at h

/-- A vertical mirror through the origin is kept with prescribed stresslets as well. -/
example : MovedWorld True .fts mirrorXY 0 (shippedWorld 1 .fts) (shippedWorld 1 .fts) :=
  (C68_gravity (.inl rfl) mirror_orth (by simp) (shippedWorld_ships 1 .fts)).mpr ⟨(mirror_keeps 0).1, fun _ => rfl⟩

end SD
