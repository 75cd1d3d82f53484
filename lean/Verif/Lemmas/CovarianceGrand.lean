import Verif.Lemmas.Covariance
import Verif.Lemmas.IsotropySystem
import Verif.Props.GrandResistance
import Verif.Spec.Units

/-!
# Changes of units, axes and numbering of the grand resistance matrix
-/

set_option autoImplicit false

namespace SD.Cov

open Spec

variable {Ns Nd : ℕ} {β : ℕ → ℕ} {K K' Kd Kl Km : Comp → Comp → ℝ}

theorem Renum.back (h : Renum Ns Nd β) {u : ℕ} {c : Comp} (hu : HasRow Ns Nd u c) :
    ∃ w, HasRow Ns Nd w c ∧ β w = u := by
  have key : ∀ n, (∀ u < n, β u < n) → (n ≤ Ns + 2 * Nd) → ∀ u < n, ∃ w < n, β w = u := by
    intro n hn hle u hu
    have maps : Set.MapsTo β (Finset.range n) (Finset.range n) := fun u hu =>
      Finset.mem_coe.mpr (Finset.mem_range.mpr (hn u (Finset.mem_range.mp hu)))
    have inj : Set.InjOn β (Finset.range n) := fun u hu v hv e => by
      have hu := Finset.mem_range.mp hu
      have hv := Finset.mem_range.mp hv
      exact h.inj u (by omega) v (by omega) e
    obtain ⟨w, hw, e⟩ := Finset.surjOn_of_injOn_of_card_le _ maps inj le_rfl (Finset.mem_coe.mpr (Finset.mem_range.mpr hu))
    exact ⟨w, Finset.mem_range.mp hw, e⟩
  cases c with
  | f i => exact key (Ns + 2 * Nd) (fun u hu => h.lt hu) le_rfl u hu
  | t i => exact key Ns h.sphere (by omega) u hu
  | s p => exact key Ns h.sphere (by omega) u hu

theorem undo_of (hβ : Renum Ns Nd β) (hd : Dual Kd K)
    (hK : ∀ c F, mix K c (fun d => mix K' d F) = F c) : Undo Ns Nd K β := by
  classical
  constructor
  · intro v'
    let β' : ℕ → ℕ := fun u => if h : ∃ w, w < Ns + 2 * Nd ∧ β w = u then h.choose else 0
    have hb : ∀ u < Ns + 2 * Nd, β' (β u) = u := by
      intro u hu
      have h : ∃ w, w < Ns + 2 * Nd ∧ β w = β u := ⟨u, hu, rfl⟩
      simp only [β']
      rw [dif_pos h]
      exact hβ.inj _ h.choose_spec.1 _ hu h.choose_spec.2
    obtain ⟨v, hv⟩ := acts_total (Ns := Ns) (Nd := Nd) K' β' v'
    refine ⟨v, fun u c hu => ?_⟩
    have hun : u < Ns + 2 * Nd := owns_lt (owns_kind hu)
    rw [← hK c fun d => v' (row Ns u d)]
    apply mix_congr
    cases c with
    | f i => intro j; rw [hv _ (.f j) (hβ.hasRow (c := .f j) hu), hb u hun]
    | t i => intro j; rw [hv _ (.t j) (hβ.hasRow (c := .t j) hu), hb u hun]
    | s i => intro j; rw [hv _ (.s j) (hβ.hasRow (c := .s j) hu), hb u hun]
  · intro v hv i hi
    obtain ⟨u, c, hu, rfl⟩ := row_surj hi
    obtain ⟨w, hw, rfl⟩ := hβ.back hu
    have pick : ∀ n (G : Fin n → ℝ), (∀ F : Fin n → ℝ, ∑ i, F i * G i = 0) → ∀ i, G i = 0 := by
      intro n G h i
      have := h fun j => if j = i then 1 else 0
      simpa using this
    cases c with
    | f i =>
      refine pick 3 (fun i => v (row Ns (β w) (.f i))) (fun F => ?_) i
      have := hd.f (fun c => match c with | .f i => F i | _ => 0) fun d => v (row Ns (β w) d)
      simp only at this
      rw [← this]
      refine Finset.sum_eq_zero fun j _ => ?_
      rw [← hv w (.f j) hw, mul_zero]
    | t i =>
      refine pick 3 (fun i => v (row Ns (β w) (.t i))) (fun F => ?_) i
      have := hd.t (fun c => match c with | .t i => F i | _ => 0) fun d => v (row Ns (β w) d)
      simp only at this
      rw [← this]
      refine Finset.sum_eq_zero fun j _ => ?_
      rw [← hv w (.t j) hw, mul_zero]
    | s i =>
      refine pick 5 (fun i => v (row Ns (β w) (.s i))) (fun F => ?_) i
      have := hd.s (fun c => match c with | .s i => F i | _ => 0) fun d => v (row Ns (β w) d)
      simp only at this
      rw [← this]
      refine Finset.sum_eq_zero fun j _ => ?_
      rw [← hv w (.s j) hw, mul_zero]

/-- The far-field matrix of a configuration and of the changed configuration, in bead coordinates. -/
noncomputable abbrev farB (P : PosData) (mu : ℝ) (bb : Bool) : NDMat :=
  generate_Minfinity_loop (NDMat.zeros (side P) (side P)) P (1 / (8 * Real.pi * mu)) mu bb

section Grand
variable {T : ScalarTable} {P P' : PosData} {k k' mu : ℝ} {bb reg dragM only : Bool} {last last' R C : NDMat}

theorem far_dumb {bb' : Bool} (hn : P'.Ns = P.Ns) (hd : P'.Nd = P.Nd) (hβ : Renum P.Ns P.Nd β)
    (far : ∀ f f', Acts P.Ns P.Nd Kl β f f' →
      Acts P.Ns P.Nd Km β (mulVec (side P) (farB P mu bb).get f) (mulVec (side P) (farB P' mu bb').get f'))
    (f f' : ℕ → ℝ) (hf : Acts P.Ns P.Nd Kl β f f') :
    Acts P.Ns P.Nd Km β (mulVec (side P) (generate_Minfinity P mu bb).get f)
      (mulVec (side P) (generate_Minfinity P' mu bb').get f') := by
  have hs : side P' = side P := by unfold side; rw [hn, hd]
  refine acts_dumb_mob hβ (fun φ i hi => Minfinity_mulVec P mu bb φ hi) (fun φ i hi => ?_) far hf
  have := Minfinity_mulVec P' mu bb' φ (i := i) (by rw [hs]; exact hi)
  rw [hs, hn, hd] at this
  unfold farB
  rw [hs]
  exact this

/-- If the two parts of the grand resistance matrix behave well under a change, so does the whole. -/
theorem grand_acts (hn : P'.Ns = P.Ns) (hd : P'.Nd = P.Nd) (hβ : Renum P.Ns P.Nd β)
    (ul : Undo P.Ns P.Nd Kl β) (um : Undo P.Ns P.Nd Km β)
    (far : dragM = false → ∀ f f', Acts P.Ns P.Nd Kl β f f' →
      Acts P.Ns P.Nd Km β (mulVec (side P) (farB P mu bb).get f) (mulVec (side P) (farB P' mu bb).get f'))
    (near : only = false → ∃ B B', generate_R2Bexact_loop T (NDMat.zeros (side P) (side P)) P.Ns P.Nd P.beadSize bb
        (close_particles (beads P) P.beadPos P.beadSize k) = some B ∧ (B.rows = side P ∧ B.cols = side P) ∧
      generate_R2Bexact_loop T (NDMat.zeros (side P') (side P')) P'.Ns P'.Nd P'.beadSize bb
        (close_particles (beads P') P'.beadPos P'.beadSize k) = some B' ∧ (B'.rows = side P' ∧ B'.cols = side P') ∧
      ∀ v v', Acts P.Ns P.Nd Km β v v' →
        Acts P.Ns P.Nd Kl β (mulVec (side P) B.get v) (mulVec (side P) B'.get v'))
    (drg : dragM = true → ∀ v v', Acts P.Ns P.Nd Km β v v' →
      Acts P.Ns P.Nd Kl β (fun i => drag P i * v i) fun i => drag P' i * v' i)
    (lst : dragM = false → reg = false → ∀ v v', Acts P.Ns P.Nd Km β v v' →
      Acts P.Ns P.Nd Kl β (mulVec (side P) last.get v) (mulVec (side P) last'.get v'))
    (h : generate_grand_resistance_matrix T P last reg k dragM only mu bb = some (R, C)) :
    ∃ R' C', generate_grand_resistance_matrix T P' last' reg k dragM only mu bb = some (R', C') ∧
      ∀ v v', Acts P.Ns P.Nd Km β v v' →
        Acts P.Ns P.Nd Kl β (mulVec (side P) R.get v) (mulVec (side P) R'.get v') ∧
        Acts P.Ns P.Nd Kl β (mulVec (side P) C.get v) (mulVec (side P) C'.get v') := by
  have hs : side P' = side P := by unfold side; rw [hn, hd]
  obtain ⟨h1, h2, h3⟩ := grand_some h
  have farC : ∃ C', (if dragM = false then
      if reg then (generate_Minfinity P' mu bb).inv else some last'
      else some (NDMat.smul mu (npDiag (dragDiagonal P')))) = some C' ∧
      ∀ v v', Acts P.Ns P.Nd Km β v v' →
        Acts P.Ns P.Nd Kl β (mulVec (side P) C.get v) (mulVec (side P) C'.get v') := by
    cases dragM
    · rw [if_pos rfl] at h1 ⊢
      cases reg
      · rw [if_neg (by simp)] at h1 ⊢
        obtain rfl := Option.some.inj h1
        exact ⟨last', rfl, lst rfl rfl⟩
      · rw [if_pos rfl] at h1 ⊢
        have d1 := Minfinity_dims P mu bb
        have d2 := Minfinity_dims P' mu bb
        rw [hs] at d2
        have hM := far_dumb hn hd hβ (far rfl)
        obtain ⟨C', hC'⟩ := inv_exists hβ d1 d2 h1 ul um hM
        exact ⟨C', hC', fun v v' hv => acts_inv hβ d1.1 d2.1 h1 hC' hM hv⟩
    · rw [if_neg (by simp)] at h1 ⊢
      obtain rfl := Option.some.inj h1
      refine ⟨_, rfl, fun v v' hv => ?_⟩
      have hd' : ∀ (P : PosData) (v : ℕ → ℝ) i, i < side P →
          mulVec (side P) (NDMat.smul mu (npDiag (dragDiagonal P))).get v i = mu * (drag P i * v i) := by
        intro P v i hi
        unfold mulVec
        rw [Finset.sum_eq_single i]
        · simp only [NDMat.smul, npDiag, if_true]
          rw [dragDiagonal_getD P hi]; ring
        · intro j _ hj
          simp [NDMat.smul, npDiag, Ne.symm hj]
        · intro hc; exact absurd (Finset.mem_range.mpr hi) hc
      refine acts_congr hβ (acts_smul mu (drg rfl v v' hv)) (fun i hi => (hd' P v i hi).symm) fun i hi => ?_
      rw [← hd' P' v' i (by rw [hs]; exact hi), hs]
  obtain ⟨C', hC', aC⟩ := farC
  cases only
  · obtain ⟨N, hN, rfl⟩ := h2 rfl
    obtain ⟨B, B', e1, dB, e2, dB', aB⟩ := near rfl
    obtain ⟨N1, f1, f2, f3, -, f4⟩ := R2B_mulVec (mu := mu) e1 dB
    obtain ⟨N2, g1, g2, g3, -, g4⟩ := R2B_mulVec (mu := mu) e2 dB'
    have : N1 = N := by
      have : generate_R2Bexact T P k mu bb = some N1 := f1
      rw [hN] at this
      exact (Option.some.inj this).symm
    subst this
    have hN2 : generate_R2Bexact T P' k mu bb = some N2 := g1
    have aN : ∀ v v', Acts P.Ns P.Nd Km β v v' →
        Acts P.Ns P.Nd Kl β (mulVec (side P) N1.get v) (mulVec (side P) N2.get v') := by
      intro v v' hv
      refine acts_dumb_res hβ (B := fun i j => mu * B.get i j) (B' := fun i j => mu * B'.get i j)
        (fun φ i hi => ?_) (fun φ i hi => ?_) (fun v v' hv => ?_) hv
      · refine (f4 φ i hi).trans ?_
        congr 1
        funext j
        simp only [mulVec, Finset.mul_sum, mul_assoc]
        rfl
      · have := g4 φ i (by rw [hs]; exact hi)
        rw [hs, hn, hd] at this
        refine this.trans ?_
        congr 1
        funext j
        simp only [mulVec, Finset.mul_sum, mul_assoc]
        rfl
      · have := acts_smul mu (aB v v' hv)
        simp only [mulVec, Finset.mul_sum, ← mul_assoc] at this
        exact this
    refine ⟨N2.add C', C', ?_, fun v v' hv => ⟨?_, aC v v' hv⟩⟩
    · unfold generate_grand_resistance_matrix
      rw [hC', Option.bind_eq_bind, Option.bind_some, if_pos rfl, hN2, Option.bind_some]
    · have := acts_add (aN v v' hv) (aC v v' hv)
      have e : ∀ (A B : NDMat) (v : ℕ → ℝ), mulVec (side P) (A.add B).get v
          = fun i => mulVec (side P) A.get v i + mulVec (side P) B.get v i := by
        intro A B v; funext i
        simp only [mulVec, NDMat.add, add_mul, Finset.sum_add_distrib]
      rw [e, e]
      exact this
  · obtain rfl := h3 rfl
    refine ⟨C', C', ?_, fun v v' hv => ⟨aC v v' hv, aC v v' hv⟩⟩
    unfold generate_grand_resistance_matrix
    rw [hC', Option.bind_eq_bind, Option.bind_some, if_neg (by simp)]

end Grand

end SD.Cov
