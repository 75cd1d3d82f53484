import Verif.Lemmas.SolveRenum
import Verif.Lemmas.SolveDecides
import Verif.Props.SolveRenumber
import Verif.Spec.SelfImage

/-!
# The resistance matrix of a suspension that is its own image
-/

set_option autoImplicit false

namespace SD.Cov

open Spec Reorder

variable {P : PosData} {Q : Fin 3 → Fin 3 → ℝ} {σ τ : ℕ → ℕ}

theorem far_image (hI : SelfImage P Q σ τ) (hP : Sensible P) {mu : ℝ} {bb : Bool} (f f' : ℕ → ℝ)
    (hf : Acts P.Ns P.Nd (turnK Q) (beadMap P.Ns P.Nd σ τ) f f') :
    Acts P.Ns P.Nd (turnK Q) (beadMap P.Ns P.Nd σ τ) (mulVec (side P) (farB P mu bb).get f)
      (mulVec (side P) (farB P mu bb).get f') := by
  have hβ : Renum P.Ns P.Nd (beadMap P.Ns P.Nd σ τ) := renum_map hI.spheres hI.dumbs
  refine far_acts (P := P) (P' := P) (Kd := turnK Q) rfl rfl hβ hP hP (dual_turnK hI.orth)
    (fun x c1 y c2 hx hy => ?_) f f' hf
  have hxn : x < beads P := owns_lt (owns_kind hx)
  have hyn : y < beads P := owns_lt (owns_kind hy)
  have hinj : x = y ↔ beadMap P.Ns P.Nd σ τ x = beadMap P.Ns P.Nd σ τ y :=
    ⟨fun h => by rw [h], fun h => hβ.inj _ hxn _ hyn h⟩
  have hsx := beadMap_sphere (Nd := P.Nd) (τ := τ) hI.spheres.lt x
  have hsy := beadMap_sphere (Nd := P.Nd) (τ := τ) hI.spheres.lt y
  have e : ∀ d1 d2, systemMob P.Ns bb (centre P) (radius P) mu (beadMap P.Ns P.Nd σ τ x) d1 (beadMap P.Ns P.Nd σ τ y) d2
      = systemMob P.Ns bb (fun u => centre P (beadMap P.Ns P.Nd σ τ u)) (fun u => radius P (beadMap P.Ns P.Nd σ τ u)) mu
        x d1 y d2 := by
    intro d1 d2
    unfold systemMob
    refine if_congr hinj.symm rfl (if_congr (by rw [hsx, hsy]) rfl rfl)
  simp only [mix_turnK, e]
  rw [← systemMob_turn hI.orth P.Ns bb _ _ mu x y c1 c2 fun hxy => by
    have hx' := hβ.lt (show x < P.Ns + 2 * P.Nd from hxn)
    have hy' := hβ.lt (show y < P.Ns + 2 * P.Nd from hyn)
    exact (sep_ne (hP.radius_pos _ hx') (hP.radius_pos _ hy') (hP.apart _ hx' _ hy' fun h => hxy (hinj.mpr h))).1]
  unfold systemMob
  dsimp only
  rw [hI.size x hxn, hI.size y hyn, hI.apart x hxn y hyn, turnVec_sub]

theorem systemNear_map (hI : SelfImage P Q σ τ) (hP : Sensible P) {T : ScalarTable} {κ : ℝ} (hκ : 0 < κ)
    (hrec : TableBalanced T P) (bb : Bool) {x y : ℕ} (hxn : x < beads P) (hyn : y < beads P) (c1 c2 : Comp) :
    systemNear P.Ns (beads P) bb (radius P) (tableScal T) (openLink κ (centre P) (radius P))
        (beadMap P.Ns P.Nd σ τ x) c1 (beadMap P.Ns P.Nd σ τ y) c2
      = systemNear P.Ns (beads P) bb (radius P) (tableScal T) (fun u v => openLink κ (centre P) (radius P)
        (beadMap P.Ns P.Nd σ τ u) (beadMap P.Ns P.Nd σ τ v)) x c1 y c2 := by
  have hβ : Renum P.Ns P.Nd (beadMap P.Ns P.Nd σ τ) := renum_map hI.spheres hI.dumbs
  have lt : ∀ u < beads P, beadMap P.Ns P.Nd σ τ u < beads P := fun u hu => hβ.lt hu
  have rx := hI.size x hxn
  have ry := hI.size y hyn
  symm
  unfold systemNear
  by_cases e : x = y
  · subst e
    rw [if_pos rfl, if_pos rfl]
    have maps : Set.MapsTo (beadMap P.Ns P.Nd σ τ) (Finset.range (beads P)) (Finset.range (beads P)) :=
      fun z hz => Finset.mem_coe.mpr (Finset.mem_range.mpr (lt z (Finset.mem_range.mp hz)))
    have inj : Set.InjOn (beadMap P.Ns P.Nd σ τ) (Finset.range (beads P)) := fun u hu v hv h =>
      hβ.inj _ (Finset.mem_range.mp hu) _ (Finset.mem_range.mp hv) h
    refine Finset.sum_nbij (beadMap P.Ns P.Nd σ τ) maps inj
      (Finset.surjOn_of_injOn_of_card_le _ maps inj le_rfl) ?_
    intro z hz
    have hz := Finset.mem_range.mp hz
    rw [rx, hI.size z hz]
    refine if_congr ?_ rfl rfl
    exact ⟨fun h => by rw [h], fun h => hβ.inj _ hz _ hxn h⟩
  · have e' : beadMap P.Ns P.Nd σ τ x ≠ beadMap P.Ns P.Nd σ τ y := fun h => e (hβ.inj _ hxn _ hyn h)
    have hsx := beadMap_sphere (Nd := P.Nd) (τ := τ) hI.spheres.lt x
    have hsy := beadMap_sphere (Nd := P.Nd) (τ := τ) hI.spheres.lt y
    rw [if_neg e, if_neg e', rx, ry]
    refine if_congr (by rw [hsx, hsy]) rfl ?_
    dsimp only
    have hmut := (near_links hP hκ).mutual
    rw [beadPos_eq, beadSize_eq] at hmut
    rcases hmut _ (lt x hxn) _ (lt y hyn) e' with ⟨h, -⟩ | ⟨d, s, hd, h, -⟩
    · rw [h]
    · rw [h]
      exact nearPair_first (hrec _ hxn _ hyn e s) hd _ _ c1 c2

theorem near_image (hI : SelfImage P Q σ τ) (hP : Sensible P) {T : ScalarTable} {κ : ℝ} (hκ : 0 < κ)
    (hT : Tabulated T.lam P κ) (hrec : TableBalanced T P) (bb : Bool) :
    NearActs T P P κ bb (turnK Q) (turnK Q) (beadMap P.Ns P.Nd σ τ) := by
  have hβ : Renum P.Ns P.Nd (beadMap P.Ns P.Nd σ τ) := renum_map hI.spheres hI.dumbs
  have lt : ∀ u < beads P, beadMap P.Ns P.Nd σ τ u < beads P := fun u hu => hβ.lt hu
  refine near_acts (T := T) (P := P) (P' := P) (κ := κ) (Kl := turnK Q) (Km := turnK Q) (Kd := turnK Q) bb rfl rfl
    hβ hP hP hκ hT hT (dual_turnK hI.orth) fun x c1 y c2 hx hy => ?_
  have hxn : x < beads P := owns_lt (owns_kind hx)
  have hyn : y < beads P := owns_lt (owns_kind hy)
  simp only [mix_turnK, systemNear_map hI hP hκ hrec bb hxn hyn]
  refine systemNear_turn hI.orth P.Ns (beads P) bb (radius P) (tableScal T) (fun u hu v hv _ => ?_)
    (fun u hu v hv h p hp => openLink_unit hP _ (lt u hu) _ (lt v hv) (fun e => h (hβ.inj _ hu _ hv e)) p hp) hxn hyn c1 c2
  have := openLink_turn hI.orth κ (fun u => centre P (beadMap P.Ns P.Nd σ τ u))
    (fun u => radius P (beadMap P.Ns P.Nd σ τ u)) u v
  refine Eq.trans ?_ this
  unfold openLink
  rw [hI.apart v hv u hu]
  dsimp only
  rw [hI.size u hu, hI.size v hv, turnVec_sub]

theorem drag_image (hI : SelfImage P Q σ τ) (v v' : ℕ → ℝ)
    (hv : Acts P.Ns P.Nd (turnK Q) (beadMap P.Ns P.Nd σ τ) v v') :
    Acts P.Ns P.Nd (turnK Q) (beadMap P.Ns P.Nd σ τ) (fun i => drag P i * v i) fun i => drag P i * v' i := by
  have hβ : Renum P.Ns P.Nd (beadMap P.Ns P.Nd σ τ) := renum_map hI.spheres hI.dumbs
  refine drag_acts (P := P) (P' := P) rfl rfl hβ (fun u c F hu => ?_) v v' hv
  have hr := hI.size u (owns_lt (owns_kind hu))
  have hs := beadMap_sphere (Nd := P.Nd) (τ := τ) hI.spheres.lt u
  congr 1
  cases c <;> simp only [dragComp, hr]
  by_cases h : u < P.Ns
  · rw [if_pos h, if_pos (by by_contra hc; exact absurd (hs.mp (by omega)) (by omega))]
  · rw [if_neg h, if_neg (by have := hs.mpr (by omega); omega)]

/-- Sends loads or motions with the symmetry to loads or motions with the symmetry. -/
def Commutes (P : PosData) (Q : Fin 3 → Fin 3 → ℝ) (σ τ : ℕ → ℕ) (C : NDMat) : Prop :=
  ∀ v v', Acts P.Ns P.Nd (turnK Q) (beadMap P.Ns P.Nd σ τ) v v' →
    Acts P.Ns P.Nd (turnK Q) (beadMap P.Ns P.Nd σ τ) (mulVec (side P) C.get v) (mulVec (side P) C.get v')

theorem grand_image (hI : SelfImage P Q σ τ) (hP : Sensible P) {T : ScalarTable} {κ : ℝ} (hκ : 0 < κ)
    (hT : Tabulated T.lam P κ) (hrec : TableBalanced T P) {last : NDMat} {reg dragM only bb : Bool} {mu : ℝ} {R C : NDMat}
    (hl : dragM = false → reg = false → Commutes P Q σ τ last)
    (h : generate_grand_resistance_matrix T P last reg κ dragM only mu bb = some (R, C)) :
    Commutes P Q σ τ R ∧ Commutes P Q σ τ C := by
  have hβ : Renum P.Ns P.Nd (beadMap P.Ns P.Nd σ τ) := renum_map hI.spheres hI.dumbs
  obtain ⟨R', C', h', hR⟩ := grand_acts (P := P) (P' := P) (last' := last) rfl rfl hβ
    (undo_turnK hI.orth hβ) (undo_turnK hI.orth hβ) (fun _ => far_image hI hP)
    (fun _ => near_image hI hP hκ hT hrec bb) (fun _ => drag_image hI) hl h
  rw [h] at h'
  obtain ⟨rfl, rfl⟩ := Prod.mk.inj (Option.some.inj h')
  exact ⟨fun v v' hv => (hR v v' hv).1, fun v v' hv => (hR v v' hv).2⟩

/-- The answer to a problem with the symmetry has the symmetry. -/
theorem same_answer (hI : SelfImage P Q σ τ) {R : NDMat} (hR : Commutes P Q σ τ R)
    {ε : ℝ} {form : InputForm} (hform : form = .fts ∨ form = .fte) (hr : R.rows = side P) (hsy : Symm R.get (side P))
    {e : Bool} {x : Inputs} {p : Outputs} (hs : solveForm form e P.Ns P.Nd R x = some p) {f v : ℕ → ℝ} (hrel : LinRel R.get (side P) v f)
    (hg : GivenSame form P.Ns P.Nd ε Q σ τ f v) :
    GrandSame P.Ns P.Nd ε Q σ τ f ∧ GrandSame P.Ns P.Nd ε Q σ τ v := by
  obtain ⟨v', hv⟩ := acts_total (Ns := P.Ns) (Nd := P.Nd) (turnK Q) (beadMap P.Ns P.Nd σ τ) v
  obtain ⟨f', hf⟩ := acts_total (Ns := P.Ns) (Nd := P.Nd) (turnK Q) (beadMap P.Ns P.Nd σ τ) f
  have hβ : Renum P.Ns P.Nd (beadMap P.Ns P.Nd σ τ) := renum_map hI.spheres hI.dumbs
  have hrel' : ∀ i < side P, mulVec (side P) R.get v' i = f' i := by
    intro i hi
    refine acts_unique (acts_congr hβ (hR v v' hv) (fun i hi => ?_) fun i _ => rfl) hf hi
    exact hrel i hi
  have hw : ∀ i < side P, mulVec (side P) R.get (fun j => v j - ε * v' j) i = f i - ε * f' i := by
    intro i hi
    rw [← hrel' i hi, ← hrel i hi]
    unfold mulVec
    rw [Finset.mul_sum, ← Finset.sum_sub_distrib]
    exact Finset.sum_congr rfl fun j _ => by ring
  have same : ∀ {z z' : ℕ → ℝ} {u : ℕ} {c : Comp}, Acts P.Ns P.Nd (turnK Q) (beadMap P.Ns P.Nd σ τ) z z' →
      HasRow P.Ns P.Nd u c → (SameAt P.Ns P.Nd ε Q σ τ z u c ↔ z (row P.Ns u c) - ε * z' (row P.Ns u c) = 0) := by
    intro z z' u c hz hu
    unfold SameAt
    rw [hz u c hu, mix_turnK, sub_eq_zero]
  have hv0 : ∀ i < side P, v i - ε * v' i = 0 := by
    refine solve_decides hform hr hsy hs (w := fun i => v i - ε * v' i) (g := fun i => f i - ε * f' i)
      (fun i hi => hw i hi) fun i hi => ?_
    obtain ⟨u, c, hu, rfl⟩ := row_surj hi
    have h := hg u c hu
    refine ⟨fun g => ?_, fun g => ?_⟩
    · obtain ⟨rfl, g1, g2⟩ := g
      cases c with
      | s p => exact (same hv hu).mp h
      | f j =>
        have := j.2
        simp only [row, HasRow] at g1 g2 hu
        split_ifs at g1 g2 <;> omega
      | t j =>
        have := j.2
        simp only [row, HasRow] at g1 g2 hu
        omega
    · cases c with
      | f j => rcases hform with rfl | rfl <;> exact (same hf hu).mp h
      | t j => rcases hform with rfl | rfl <;> exact (same hf hu).mp h
      | s p =>
        rcases hform with rfl | rfl
        · exact (same hf hu).mp h
        · refine absurd ⟨rfl, ?_⟩ g
          simp only [HasRow] at hu
          simp only [stressIdx, row]
          have := p.2
          omega
  have hf0 : ∀ i < side P, f i - ε * f' i = 0 := by
    intro i hi
    rw [← hw i hi]
    unfold mulVec
    exact Finset.sum_eq_zero fun j hj => by
      show _ * (v j - ε * v' j) = 0
      rw [hv0 j (Finset.mem_range.mp hj), mul_zero]
  exact ⟨fun u c hu => (same hf hu).mpr (hf0 _ (row_lt hu)), fun u c hu => (same hv hu).mpr (hv0 _ (row_lt hu))⟩

end SD.Cov
