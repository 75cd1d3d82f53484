import Verif.Lemmas.RenumRun
import Verif.Props.ShippedRun
import Verif.Props.Moved
import Mathlib.Tactic.IntervalCases

/-!
# C90: a whole run does not depend on the order in which the particles are listed
-/

set_option autoImplicit false

namespace SD

open Spec Move Ship Reorder

variable {σ τ : ℕ → ℕ} {W W' : World} {S : Settings} {K : NDMat → Prop}

theorem watched_reordered {form : InputForm} {Ns Nd : ℕ} (h : ReorderedWorld form Ns Nd σ τ W W')
    (G : Config → Prop) : ReorderedWorld form Ns Nd σ τ (watched W G) W' where
  table := h.table
  input := fun c f dt v r r' u a b e hu => h.input c f dt v r r' u a b e (watched_input hu).2

theorem fresh_reordered (c : Config) : ReorderedState σ τ (State.fresh c) (State.fresh (reorderConfig σ τ c)) :=
  ⟨rfl, rfl, rfl, rfl, rfl, rfl⟩

theorem balanced_of_sizes {T : ScalarTable} {c d : Config} (h : SameSizes c d) (hb : TableBalanced T c.P) :
    TableBalanced T d.P := by
  obtain ⟨e1, e2⟩ := same_beads h
  unfold Spec.TableBalanced
  rw [e1, e2]
  exact hb

/-- Runs that the solver serves everywhere before beads touch. -/
theorem reorder_untouched {c : Config} (hσ : Reorders c.P.Ns σ) (hτ : Reorders c.P.Nd τ)
    (hW : ReorderedWorld S.input_form c.P.Ns c.P.Nd σ τ W W') (hB : TableBalanced W.table c.P)
    (hK : ∀ d, SameSizes c d → Ready W S d → Serves W S K d) (hS : Runnable S c.P.Nd) (ha : Arrows c)
    (hN : 0 < S.num_frames) (hc : Steady W S c) (h0 : ¬ Touching c.P)
    (hT : ∀ d, SameSizes c d → ∀ f dt v r u, W.input_ftsuoe d f dt v r = some u → Traceless u.inp)
    (hno : ∀ u, W.input_ftsuoe c 0 0.1 Vel.blank none = some u →
      ∀ j < S.num_frames, ∀ s, runFrames W S u.bl u.tr (State.fresh c) j = some s → s.error = false →
      ∀ d, Visits W S u.bl u.tr j s d → ¬ Touching d.P) :
    ∃ d, program W S (State.fresh c) = some (some d, none) ∧
      program W' S (State.fresh (reorderConfig σ τ c)) = some (some (reorderSaved σ τ d), none) := by
  have ready : ∀ d, SameSizes c d → ¬ Touching d.P → Ready (watched W (Orderly W S K)) S d ∧
      Serves (watched W (Orderly W S K)) S K d := by
    intro d hd ht
    have hr := steady_ready hc hd ht
    have hs : Serves W S K d := fun {_ _ _ _ _} => hK d hd hr
    refine ⟨⟨hr.sensible, hr.separate, hr.tabulated, hr.allowed, hr.beads, fun f dt v r => ?_⟩, serves_watched hs⟩
    obtain ⟨u, h1, h2⟩ := hr.answers f dt v r
    refine ⟨u, ?_, h2⟩
    have ho : Orderly W S K d := by
      refine ⟨hr.sensible, hr.tabulated, balanced_of_sizes hd hB, hr.allowed, fun f dt v r u hu => ?_, hs⟩
      obtain ⟨u', g1, g2, -⟩ := hr.answers f dt v r
      obtain rfl := Option.some.inj (hu.symm.trans g1)
      exact ⟨g2, hT d hd _ _ _ _ _ hu⟩
    unfold watched
    dsimp only
    rw [if_pos ho]
    exact h1
  obtain ⟨d, hd⟩ := program_exists (W := watched W (Orderly W S K)) (K := K) hS ha hN
    (ready c ⟨rfl, rfl, rfl, rfl⟩ h0).1 (by
    intro u hu j hj s hs he d hv
    have hz := run_sizes hs
    have hsz : SameSizes c d := SameSizes.trans ⟨hz.1, hz.2.1, hz.2.2.1, hz.2.2.2⟩ (visits_sizes hv)
    exact ready d hsz (hno u (watched_input hu).2 j hj s (run_mono (watched_extends W _) _ hs) he d
      (visits_mono (watched_extends W _) hv)))
  refine ⟨d, program_mono (watched_extends W _) hd, ?_⟩
  exact program_reordered (K := K) (s := State.fresh c) hσ hτ (watched_reordered hW _) hS.cutoff (by
    intro d f dt v r u hu
    have ho := (watched_input hu).1
    exact ⟨ho.sensible, ho.tabulated, ho.balanced, ho.allowed,
      fun f dt v r u hu => ho.inputs f dt v r u (watched_input hu).2, serves_watched ho.serves⟩)
    (fresh_reordered c) hd

/-- **C90** (run). The spheres are listed in the order `σ` and the dumbbells in the order `τ`, and the input function
answers for them in that order. With a table that dissipates and satisfies the reciprocal theorem for the sizes
present, and as long as no two beads come closer than 2.001 average radii, both programs run through, with any scheme
and in any mode, and everything that the second saves is what the first saves, in that order. -/
theorem C90_untouched {c : Config} (hσ : Reorders c.P.Ns σ) (hτ : Reorders c.P.Nd τ)
    (hW : ReorderedWorld S.input_form c.P.Ns c.P.Nd σ τ W W') (hD : TableDissipates W.table)
    (hB : TableBalanced W.table c.P) (hS : Runnable S c.P.Nd) (ha : Arrows c)
    (hN : 0 < S.num_frames) (hc : Steady W S c) (h0 : ¬ Touching c.P)
    (hT : ∀ d, SameSizes c d → ∀ f dt v r u, W.input_ftsuoe d f dt v r = some u → Traceless u.inp)
    (hno : ∀ u, W.input_ftsuoe c 0 0.1 Vel.blank none = some u →
      ∀ j < S.num_frames, ∀ s, runFrames W S u.bl u.tr (State.fresh c) j = some s → s.error = false →
      ∀ d, Visits W S u.bl u.tr j s d → ¬ Touching d.P) :
    ∃ d, program W S (State.fresh c) = some (some d, none) ∧
      program W' S (State.fresh (reorderConfig σ τ c)) = some (some (reorderSaved σ τ d), none) :=
  reorder_untouched (K := Sound c.P) hσ hτ hW hB
    (fun _ hd hr => dissipates_serves hD hS.cutoff hr hd.Ns hd.Nd) hS ha hN hc h0 hT hno

/-- **C90** (shipped table). The same with the table of the project, for beads of one size and a fixed viscosity, with
the full far field. -/
theorem C90_shipped {c : Config} (hσ : Reorders c.P.Ns σ) (hτ : Reorders c.P.Nd τ)
    (hW : ReorderedWorld S.input_form c.P.Ns c.P.Nd σ τ W W') (hTab : W.table = shippedTable)
    (hdrag : S.use_drag_Minfinity = false) {a mu : ℝ} (ha : 0 < a) (hE : EqualBeads c.P a)
    (hmu : ∀ d f dt v r u, W.input_ftsuoe d f dt v r = some u → u.mu = mu)
    (hS : Runnable S c.P.Nd) (har : Arrows c) (hN : 0 < S.num_frames) (hc : Steady W S c) (h0 : ¬ Touching c.P)
    (hT : ∀ d, SameSizes c d → ∀ f dt v r u, W.input_ftsuoe d f dt v r = some u → Traceless u.inp)
    (hno : ∀ u, W.input_ftsuoe c 0 0.1 Vel.blank none = some u →
      ∀ j < S.num_frames, ∀ s, runFrames W S u.bl u.tr (State.fresh c) j = some s → s.error = false →
      ∀ d, Visits W S u.bl u.tr j s d → ¬ Touching d.P) :
    ∃ d, program W S (State.fresh c) = some (some d, none) ∧
      program W' S (State.fresh (reorderConfig σ τ c)) = some (some (reorderSaved σ τ d), none) :=
  reorder_untouched (K := Stiff c a mu) hσ hτ hW (equal_balanced _ hE)
    (fun _ hd hr => shipped_serves hTab hdrag hS.cutoff ha hE hmu hr hd) hS har hN hc h0 hT hno

/-! ## The listed inputs -/

theorem reorder_replicate {α : Type} {n : ℕ} {ρ : ℕ → ℕ} (h : Reorders n ρ) {k : ℕ} (hk : n ≤ k) (a : α) :
    reorder ρ (List.replicate k a) = List.replicate k a := by
  apply List.ext_getElem?
  intro i
  rw [reorder_get? h (by simpa using hk), List.getElem?_replicate, List.getElem?_replicate]
  by_cases hi : i < n
  · rw [if_pos (lt_of_lt_of_le (h.lt i hi) hk), if_pos (lt_of_lt_of_le hi hk)]
  · rw [h.rest i (by omega)]

theorem reorder_default {form : InputForm} {P : PosData} (hσ : Reorders P.Ns σ) (hτ : Reorders P.Nd τ) :
    reorderInputs σ τ (defaultInputs form P) = defaultInputs form P := by
  cases form <;>
  simp [reorderInputs, defaultInputs, empty_vectors, reorder_replicate hσ le_rfl, reorder_replicate hτ le_rfl]

theorem reorder_range {ρ : ℕ → ℕ} {n : ℕ} (h : Reorders n ρ) {α : Type} (g : ℕ → α) :
    reorder ρ ((List.range n).map g) = (List.range n).map fun i => g (ρ i) := by
  apply List.ext_getElem?
  intro i
  rw [reorder_get? h (by simp), List.getElem?_map, List.getElem?_map]
  by_cases hi : i < n
  · rw [List.getElem?_range hi, List.getElem?_range (h.lt i hi)]; rfl
  · rw [h.rest i (by omega), List.getElem?_eq_none (by simpa using hi)]; rfl

/-- Gravity, the oscillating shear with dumbbell springs, and the constant shear treat the particles alike. -/
theorem listed_reordered {m : ℕ} (hm : m = 1 ∨ m = 3 ∨ m = 7) {form : InputForm} (hW : Ships m form W) {Ns Nd : ℕ}
    (hσ : Reorders Ns σ) (hτ : Reorders Nd τ) (hf : form = .fts ∨ form = .fte)
    (h0 : 0 < Nd → σ 0 = 0 ∨ form = .fte) : ReorderedWorld form Ns Nd σ τ W W where
  table := rfl
  input := by
    intro c f dt v r r' u h1 h2 _ hu
    subst h1 h2
    rw [hW] at hu
    rw [hW]
    have e0 : defaultUserInput form (relabel c.P σ τ) = defaultUserInput form c.P := rfl
    obtain ⟨q1, q2, q3, q4, q5, q6, q7, q8, q9⟩ := Inputs.mk.inj (reorder_default (form := form) hσ hτ)
    have ea : ∀ (M : Mat3), reorder σ ((List.replicate (max 1 c.P.Ns) M).map givenMat)
        = (List.replicate (max 1 c.P.Ns) M).map givenMat := by
      intro M
      rw [List.map_replicate]
      exact reorder_replicate hσ (le_max_right _ _) _
    have nf : form ≠ .fts → form ≠ .fte → KeepsFixed σ τ u.inp := by
      rcases hf with rfl | rfl <;> simp
    have un : ∀ (M : Mat3) (k : ℕ), u.inp.Ea = List.replicate k (givenMat M) → 0 < c.P.Nd →
        σ 0 = 0 ∨ form ≠ .fts ∧ ∀ a ∈ u.inp.Ea, ∀ b ∈ u.inp.Ea, a = b := by
      intro M k e hN
      refine (h0 hN).imp id fun hf => ⟨by rw [hf]; simp, fun a ha b hb => ?_⟩
      rw [e] at ha hb
      rw [List.eq_of_mem_replicate ha, List.eq_of_mem_replicate hb]
    unfold input_ftsuoe at hu ⊢
    dsimp only at hu ⊢
    rcases hm with rfl | rfl | rfl
    · simp only [if_true] at hu ⊢
      obtain rfl := Option.some.inj hu
      refine ⟨_, rfl, ?_, rfl, rfl, rfl, rfl, rfl, rfl, nf, ?_⟩
      · exact Inputs.mk.injEq .. ▸ ⟨(reorder_replicate hσ le_rfl _).symm, q2.symm, q3.symm, q4.symm, q5.symm, q6.symm,
          q7.symm, q8.symm, q9.symm⟩
      · intro hN
        refine (h0 hN).imp id fun hf => ?_
        subst hf
        refine ⟨by simp, fun a ha b hb => ?_⟩
        rw [List.eq_of_mem_replicate ha, List.eq_of_mem_replicate hb]
    · simp only [Nat.reduceEqDiff, if_false, if_true] at hu ⊢
      by_cases hz : ∃ i < c.P.Nd, norm3 (c.P.dumbDx i) = 0
      · rw [if_pos hz] at hu; exact absurd hu (by simp)
      rw [if_neg hz] at hu
      rw [if_neg (show ¬ ∃ i < (reorderConfig σ τ c).P.Nd, norm3 ((reorderConfig σ τ c).P.dumbDx i) = 0 from
        fun ⟨i, hi, h⟩ => hz ⟨_, hτ.lt i hi, h⟩)]
      unfold oscillatory_shear at hu ⊢
      simp only [if_true] at hu ⊢
      rw [if_neg (by norm_num)] at hu ⊢
      obtain rfl := Option.some.inj hu
      refine ⟨_, rfl, ?_, rfl, rfl, rfl, rfl, rfl, rfl, nf, un _ _ List.map_replicate⟩
      exact Inputs.mk.injEq .. ▸ ⟨q1.symm, q2.symm, q3.symm, q4.symm, (reorder_range hτ fun i => givenRow (springForce (c.P.dumbDx i))).symm, q6.symm, (ea _).symm,
        q8.symm, q9.symm⟩
    · simp only [Nat.reduceEqDiff, if_false, if_true] at hu ⊢
      obtain rfl := Option.some.inj hu
      refine ⟨_, rfl, ?_, rfl, rfl, rfl, rfl, rfl, rfl, nf, un _ _ List.map_replicate⟩
      exact Inputs.mk.injEq .. ▸ ⟨q1.symm, q2.symm, q3.symm, q4.symm, q5.symm, q6.symm, (ea _).symm, q8.symm, q9.symm⟩

theorem given_zero {k : ℕ} {m : Mat3} (h : num33 m ∈ List.replicate k (givenMat 0)) : SymTraceless m := by
  have := num33_inj (List.eq_of_mem_replicate h : num33 m = num33 0)
  rw [this]
  exact ⟨fun _ _ => rfl, by simp⟩

theorem listed_traceless {m : ℕ} (hm : m = 1 ∨ m = 3 ∨ m = 7) {form : InputForm} {P : PosData} {f dt : ℝ}
    {u : UserInput} (h : input_ftsuoe m form P f dt = some u) : Traceless u.inp := by
  have pip : ∀ {k : ℕ} {m : Mat3}, num33 m ∈ List.replicate k pippaMat → SymTraceless m := by
    intro k m h
    have := congrFun (congrFun (List.eq_of_mem_replicate h) 0) 0
    simp [num33, pippaMat] at this
  have d : Traceless (defaultInputs form P) := by
    cases form <;> exact ⟨fun m hm => by first | exact pip hm | exact given_zero hm,
      fun m hm => by first | exact pip hm | exact given_zero hm⟩
  have sh : ∀ (g : ℝ) (k : ℕ) (m : Mat3),
      num33 m ∈ (List.replicate k ![![0, 0, 0.5 * g], ![0, 0, 0], ![0.5 * g, 0, 0]]).map givenMat →
      SymTraceless m := by
    intro g k m hm
    rw [List.map_replicate] at hm
    have e := num33_inj (List.eq_of_mem_replicate hm :
      num33 m = num33 (![![0, 0, 0.5 * g], ![0, 0, 0], ![0.5 * g, 0, 0]] : Mat3))
    rw [e]
    refine ⟨fun i j => ?_, by simp⟩
    fin_cases i <;> fin_cases j <;> simp
  rcases shipped_cases h with ⟨-, e⟩ | ⟨-, -, g, e⟩ | ⟨rfl, -⟩ | ⟨rfl, -⟩ | ⟨rfl, -⟩ | ⟨-, e⟩
  · rw [e]; exact d
  · rw [e]; exact ⟨d.1, sh g _⟩
  · omega
  · omega
  · omega
  · rw [e]; exact ⟨d.1, sh 1 _⟩

/-- **C90** (the first sphere). All dumbbells are carried by the strain of the sphere that is listed first. Two spheres
change places, and the solver returns the same motion and the same strains in the new order. Then the dumbbells move
differently: the velocities differ by the difference of the strains of these two spheres applied to the position, and
half the link velocities by half of that applied to the link. -/
theorem C90_first {c : Config} {st st' : Stage} (hN : 2 ≤ c.P.Ns) (hE : st.out.Ea.length = c.P.Ns)
    (ho : st'.out = reorderOutputs swap01 (fun i => i) st.out) (hU : st'.U = st.U) (hO : st'.O = st.O)
    (hC : st'.centre = st.centre) {v v' : Vel} (h : stageVel c st st.out.Ea = some v)
    (h' : stageVel (reorderConfig swap01 (fun i => i) c) st' st'.out.Ea = some v') (hD : 0 < c.P.Nd) (i : ℕ) (k : Fin 3) :
    v'.Ub i k - v.Ub i k = ∑ j, (st.out.Ea.getD 1 0 k j - st.out.Ea.getD 0 0 k j) * (c.P.dumbPos i j - st.centre j) ∧
    v'.HalfDUb i k - v.HalfDUb i k
      = 1 / 2 * ∑ j, (st.out.Ea.getD 1 0 k j - st.out.Ea.getD 0 0 k j) * c.P.dumbDx i j := by
  have e0 : st.out.Ea.headD 0 = st.out.Ea.getD 0 0 := by cases st.out.Ea <;> rfl
  have e1 : (reorder swap01 st.out.Ea).headD 0 = st.out.Ea.getD 1 0 := by
    have : (reorder swap01 st.out.Ea).headD 0 = (reorder swap01 st.out.Ea).getD 0 0 := by
      cases reorder swap01 st.out.Ea <;> rfl
    rw [this, reorder_getD (swap01_reorders hN) hE.ge]
    rfl
  have id1 : ∀ (l : List Vec3) (j : ℕ), asArr (reorder (fun i => i) l) j = asArr l j := fun l j => by rw [reorder_id]
  unfold stageVel at h h'
  rw [if_neg (by omega), if_neg] at h
  · rw [if_neg, if_neg] at h'
    · obtain rfl := Option.some.inj h
      obtain rfl := Option.some.inj h'
      dsimp only
      rw [if_pos hD, if_pos hD, if_pos (show 0 < (reorderConfig swap01 (fun i => i) c).P.Nd from hD),
        if_pos (show 0 < (reorderConfig swap01 (fun i => i) c).P.Nd from hD), ho, hU, hO, hC]
      simp only [add_background_flow_dumbbells, reorderOutputs, id1, e0, e1, reorderConfig, relabel, matVec3, sub_mul,
        Finset.sum_sub_distrib]
      constructor <;> ring
    · rintro ⟨-, hn⟩
      have := congrArg List.length hn
      rw [ho] at this
      simp [reorderOutputs, hE] at this
      omega
    · rintro ⟨-, hl⟩
      rw [ho] at hl
      simp only [reorderOutputs, reorder_length, hE] at hl
      exact absurd hl (lt_irrefl _)
  · rintro ⟨-, hn⟩
    rw [hn] at hE
    simp at hE
    omega

/-- **C90** (listed inputs). Particles falling under gravity (input 1), in the oscillating shear with springs (input 3)
or in the constant shear (input 7), with prescribed stresslets or strains: as long as no beads touch, the program
started from the same particles listed in another order saves the same history in that order. If there are dumbbells
and the strains are not prescribed, the first sphere has to stay the first, see `C90_first`. -/
theorem C90_listed {m : ℕ} (hm : m = 1 ∨ m = 3 ∨ m = 7) {form : InputForm} (hW : Ships m form W)
    (hform : S.input_form = form) (hf : form = .fts ∨ form = .fte) (hTab : W.table = shippedTable)
    (hdrag : S.use_drag_Minfinity = false) {c : Config} {a : ℝ} (ha : 1 / 10 ^ 8 < a) (hE : EqualBeads c.P a)
    (hN : 0 < c.P.Ns) (hb : S.bead_bead_interactions = true ∨ c.P.Nd = 0)
    (hσ : Reorders c.P.Ns σ) (hτ : Reorders c.P.Nd τ) (h1 : 0 < c.P.Nd → σ 0 = 0 ∨ form = .fte)
    (hS : Runnable S c.P.Nd) (har : Arrows c) (hk : 0 < S.num_frames) (h0 : ¬ Touching c.P)
    (hno : ∀ u, W.input_ftsuoe c 0 0.1 Vel.blank none = some u →
      ∀ j < S.num_frames, ∀ s, runFrames W S u.bl u.tr (State.fresh c) j = some s → s.error = false →
      ∀ d, Visits W S u.bl u.tr j s d → ¬ Touching d.P) :
    ∃ d, program W S (State.fresh c) = some (some d, none) ∧
      program W S (State.fresh (reorderConfig σ τ c)) = some (some (reorderSaved σ τ d), none) := by
  have a0 : 0 < a := lt_trans (by norm_num) ha
  have hfa : formAllowed form c.P.Ns := ⟨fun h => absurd h (by omega), by rcases hf with rfl | rfl <;> simp⟩
  have hst : Steady W S c := by
    refine shipped_steady hW hform (fun x hx => by rw [hE x hx]; exact ha) (fun x hx y hy => ?_) hfa hb (by omega)
      (by omega) (by omega) ?_
    · rw [hE x hx, hE y hy, div_self a0.ne', hTab]
      exact ⟨1, by simp [shippedTable], by norm_num⟩
    · rcases hf with rfl | rfl
      · exact ⟨by omega, by omega, by omega⟩
      · exact ⟨by omega, by omega⟩
  refine C90_shipped hσ hτ (by rw [hform]; exact listed_reordered hm hW hσ hτ hf h1) hTab hdrag a0 hE (mu := 1)
    (fun d f dt v r u hu => ?_) hS har hk hst h0 (fun d _ f dt v r u hu => ?_) hno
  · rw [hW] at hu; exact (shipped_box hu).1
  · rw [hW] at hu; exact listed_traceless hm hu

/-! ## The hypotheses can be met -/

/-- Two spheres at a distance at which the near field alone gains energy, sheared with the shipped table for any number
of frames: listed the other way round they leave the same history the other way round. -/
example (sch : Scheme) (hs : sch = .euler ∨ sch = .rk4) (N : ℕ) (hN : 0 < N) : ∃ d,
    program (listedWorld 7 .fts) { calmSettings sch N with invert_m_every := 10 } (State.fresh apartStart)
      = some (some d, none) ∧
    program (listedWorld 7 .fts) { calmSettings sch N with invert_m_every := 10 }
        (State.fresh (reorderConfig swap01 (fun i => i) apartStart))
      = some (some (reorderSaved swap01 (fun i => i) d), none) := by
  obtain ⟨a1, a2, a3, a4, a5, a6, a7, a8, a9⟩ := calmSettings_ok hs N 0
  have hN0 : 0 < apartStart.P.Ns := by simp [apartStart, apartP]
  exact C90_listed (.inr (.inr rfl)) (listedWorld_ships 7 .fts) rfl (.inl rfl) rfl rfl (a := 1) (by norm_num)
    (apartP_equal _) hN0 (.inl rfl) (swap01_reorders le_rfl) (id_reorders _) (by simp [apartStart, apartP])
    ⟨a1, a2, a3, by norm_num, a5, a6, a7, a8, a9⟩ apartStart_arrows hN apartStart_apart
    fun u hu j _ s hrun he d hv => never_touching (listedWorld_ships 7 .fts) rfl hs rfl hN0 apartStart_apart hu hrun he hv

/-- The sphere between two dumbbells, which change places, with any flow; one Euler frame with the dissipating table. -/
example (U O c : Vec3) : ∃ d,
    program (constWorld (starUser U O c)) (starSettings .euler 1) (State.fresh starStart) = some (some d, none) ∧
    program (constWorld { starUser U O c with inp := reorderInputs (fun i => i) swap01 starInp })
        (starSettings .euler 1) (State.fresh (reorderConfig (fun i => i) swap01 starStart))
      = some (some (reorderSaved (fun i => i) swap01 d), none) := by
  refine C90_untouched (id_reorders _) (swap01_reorders le_rfl) ?_ dampT_dissipates
    (equal_balanced _ fun x hx => starP_radius hx) (starSettings_ok 1 (.inl rfl)) starStart_arrows
    (by simp [starSettings, loneSettings]) (star_steady U O c _ _) star_apart ?_ ?_
  · refine ⟨rfl, fun c' f dt v r r' w _ _ _ hw => ⟨_, rfl, ?_⟩⟩
    obtain rfl := Option.some.inj hw
    refine ⟨rfl, rfl, rfl, rfl, rfl, rfl, rfl, fun _ _ => ⟨fun i => Iff.rfl, fun i => ?_⟩, fun _ => .inl rfl⟩
    have e : ∀ j, (starUser U O c).inp.Ub.getD j blank = blank := by
      intro j
      match j with
      | 0 => rfl
      | 1 => rfl
      | j + 2 => rfl
    rw [e, e]
  · intro d _ f dt v r u hu
    obtain rfl := Option.some.inj hu
    exact starInp_traceless
  · intro u _ j hj s hs _ d hv
    obtain rfl : j = 0 := by simpa [starSettings, loneSettings] using hj
    obtain rfl := Option.some.inj hs
    rcases hv with rfl | ⟨h, -⟩
    · exact star_apart
    · simp [starSettings, loneSettings] at h

/-- Two spheres and a dumbbell. -/
noncomputable def trioP : PosData where
  Ns := 2
  Nd := 1
  sphereSize := fun _ => 1
  spherePos := fun i => if i = 0 then 0 else ![5, 0, 0]
  dumbSize := fun _ => 1
  dumbPos := fun _ => ![0, 5, 0]
  dumbDx := fun _ => ![0, 0, 4]

theorem trioP_radius {x : ℕ} (hx : x < beads trioP) : radius trioP x = 1 := by
  have hx' : x < 4 := hx
  interval_cases x <;> simp [radius, trioP]

theorem trioP_len {x y : ℕ} (hx : x < beads trioP) (hy : y < beads trioP) (hxy : x ≠ y) :
    4 ≤ len fun i => centre trioP x i - centre trioP y i := by
  have hx' : x < 4 := hx
  have hy' : y < 4 := hy
  unfold len
  apply Real.le_sqrt_of_sq_le
  rw [Fin.sum_univ_three]
  interval_cases x <;> interval_cases y <;> first
    | exact absurd rfl hxy
    | (simp [centre, trioP] <;> norm_num)

/-- The second sphere is strained, the first is not. -/
noncomputable def trioInp : Inputs where
  Fa := [num3 0, num3 0]
  Ta := [num3 0, num3 0]
  Sa := [fun _ _ => none, fun _ _ => none]
  Fb := [num3 0]
  DFb := [num3 0]
  Ua := [blank, blank]
  Ea := [num33 0, num33 ![![0, 0, 1], ![0, 0, 0], ![1, 0, 0]]]
  Ub := [blank]
  HalfDUb := [blank]

theorem trioInp_traceless : Traceless trioInp := by
  constructor
  · intro m hm
    simp only [trioInp, List.mem_cons, List.not_mem_nil, or_false] at hm
    rcases hm with hm | hm <;> · have := congrFun (congrFun hm 0) 0; simp [num33] at this
  · intro m hm
    simp only [trioInp, List.mem_cons, List.not_mem_nil, or_false] at hm
    rcases hm with hm | hm <;> rw [num33_inj hm]
    · exact ⟨fun _ _ => rfl, by simp⟩
    · refine ⟨?_, by simp⟩
      intro i j; fin_cases i <;> fin_cases j <;> rfl

theorem trioInp_complete : Complete .fte 2 1 trioInp := by
  refine ⟨?_, ?_, ⟨le_rfl, ?_⟩, ?_, ?_⟩
  all_goals
    simp only [trioInp, List.mem_cons, List.not_mem_nil, or_false, forall_eq_or_imp, forall_eq]
    simp only [given_num3, given_num33, and_self]

/-- Listed the other way round, the same two spheres turn the dumbbell at another rate. -/
example : ∃ R C R' C' p q,
    generate_grand_resistance_matrix shippedTable trioP (NDMat.zeros 0 0) true 5 false false 3 true = some (R, C) ∧
    solveForm .fte false 2 1 R trioInp = some p ∧
    generate_grand_resistance_matrix shippedTable (relabel trioP swap01 fun i => i) (NDMat.zeros 0 0) true 5 false false
      3 true = some (R', C') ∧
    solveForm .fte false 2 1 R' (reorderInputs swap01 (fun i => i) trioInp) = some q ∧
    ∀ rots v v', stageVel ⟨trioP, rots⟩ ⟨p, C, 0, 0, 0, 0, 0⟩ p.Ea = some v →
      stageVel (reorderConfig swap01 (fun i => i) ⟨trioP, rots⟩) ⟨q, C', 0, 0, 0, 0, 0⟩ q.Ea = some v' →
      v'.HalfDUb 0 0 - v.HalfDUb 0 0 = 2 := by
  obtain ⟨R, C, R', C', p, q, h1, h2, h3, h4, h5⟩ := C89_shipped (a := 1) (P := trioP) one_pos
    (fun x hx => trioP_radius hx)
    ⟨fun x hx => by rw [trioP_radius hx]; norm_num, fun x hx y hy h => lt_of_lt_of_le (by norm_num) (trioP_len hx hy h)⟩
    (fun x hx y hy h => by rw [trioP_radius hx, trioP_radius hy]; exact le_trans (by norm_num) (trioP_len hx hy h))
    (k := 5) (by norm_num) (mu := 3) (by norm_num) (.inl rfl) (NDMat.zeros 0 0)
    (swap01_reorders (n := 2) le_rfl) (id_reorders 1) (form := .fte) (x := trioInp) ⟨by decide, by decide⟩
    ⟨rfl, rfl, rfl, rfl, rfl, rfl, rfl, rfl⟩ trioInp_traceless trioInp_complete (by simp)
  · refine ⟨R, C, R', C', p, q, h1, h2, h3, h4, fun rots v v' hv hv' => ?_⟩
    have ho := reordered_outputs h2 h4 h5
    have hE := solve_strains h2
    rw [if_neg (by simp)] at hE
    have hE := floats33L_num hE
    have hE : p.Ea = [0, ![![0, 0, 1], ![0, 0, 0], ![1, 0, 0]]] :=
      (List.map_injective_iff.mpr (fun a b h => num33_inj h)) (hE.symm.trans rfl)
    have := (C90_first (c := ⟨trioP, rots⟩) (st := ⟨p, C, 0, 0, 0, 0, 0⟩) (st' := ⟨q, C', 0, 0, 0, 0, 0⟩) le_rfl
      (by rw [hE]; rfl) ho rfl rfl rfl hv hv' (by simp [trioP]) 0 0).2
    rw [this]
    simp [hE, trioP, Fin.sum_univ_three]
    norm_num

end SD
