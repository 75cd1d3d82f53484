import Verif.Lemmas.SignGreen
import Verif.Lemmas.SelfImage
import Verif.Props.PeriodicGrand

/-!
# The resistance matrix of a suspension in a periodic box that is its own image
-/

set_option autoImplicit false

namespace SD.Sign

open Spec Reorder Cov Ewald

variable {P : PosData} {Q : Fin 3 → Fin 3 → ℝ} {σ τ : ℕ → ℕ} {s : Fin 3 → ℝ}

/-! ## The far field -/

theorem silent_map (hσ : Reorders P.Ns σ) (hτ : Reorders P.Nd τ) (bb : Bool) {x y : ℕ} (hx : x < beads P)
    (hy : y < beads P) : Silent P bb (beadMap P.Ns P.Nd σ τ x) (beadMap P.Ns P.Nd σ τ y) ↔ Silent P bb x y := by
  have hβ : Renum P.Ns P.Nd (beadMap P.Ns P.Nd σ τ) := renum_map hσ hτ
  have sx := beadMap_sphere (Nd := P.Nd) (τ := τ) hσ.lt x
  have sy := beadMap_sphere (Nd := P.Nd) (τ := τ) hσ.lt y
  have hinj : beadMap P.Ns P.Nd σ τ x = beadMap P.Ns P.Nd σ τ y ↔ x = y :=
    ⟨fun h => hβ.inj _ hx _ hy h, fun h => by rw [h]⟩
  have mate : ∀ {u v : ℕ}, u < beads P → v < beads P → P.Ns ≤ u →
      (beadMap P.Ns P.Nd σ τ u + P.Nd = beadMap P.Ns P.Nd σ τ v ↔ u + P.Nd = v) := by
    intro u v hu hv hn
    unfold beads at hu hv
    unfold beadMap
    rw [if_neg (by omega)]
    by_cases h1 : u < P.Ns + P.Nd
    · rw [if_pos h1]
      have l1 := hτ.lt (u - P.Ns) (by omega)
      by_cases h2 : v < P.Ns
      · rw [if_pos h2]
        have := hσ.lt v h2
        omega
      · rw [if_neg h2]
        by_cases h3 : v < P.Ns + P.Nd
        · rw [if_pos h3]
          have := hτ.lt (v - P.Ns) (by omega)
          omega
        · rw [if_neg h3]
          constructor
          · intro h
            have e : τ (u - P.Ns) = τ (v - (P.Ns + P.Nd)) := by omega
            have := hτ.inj _ (by omega) _ (by omega) e
            omega
          · intro h
            have : u - P.Ns = v - (P.Ns + P.Nd) := by omega
            rw [this]; omega
    · rw [if_neg h1]
      by_cases h2 : v < P.Ns
      · rw [if_pos h2]
        have := hσ.lt v h2
        omega
      · rw [if_neg h2]
        by_cases h3 : v < P.Ns + P.Nd
        · rw [if_pos h3]
          have := hτ.lt (v - P.Ns) (by omega)
          omega
        · rw [if_neg h3]
          have := hτ.lt (v - (P.Ns + P.Nd)) (by omega)
          omega
  unfold Silent
  constructor
  · rintro ⟨h1, h2, h3, h4, h5, h6⟩
    have hx' := sx.mp h2
    have hy' := sy.mp h3
    exact ⟨h1, hx', hy', fun e => h4 (hinj.mpr e), fun e => h5 ((mate hx hy hx').mpr e), fun e => h6 ((mate hy hx hy').mpr e)⟩
  · rintro ⟨h1, h2, h3, h4, h5, h6⟩
    exact ⟨h1, sx.mpr h2, sy.mpr h3, fun e => h4 (hinj.mp e), fun e => h5 ((mate hx hy h2).mp e),
      fun e => h6 ((mate hy hx h3).mp e)⟩

theorem codeEntry_image (hs : Signs s) (hI : SelfImage P (signQ s) σ τ) {W : Lattice} (hp : Proper W)
    (hW : (W.X.map fun x => -x).Perm W.X) (hX : (W.X.map (flip s)).Perm W.X) (hK : (W.K.map (flip s)).Perm W.K)
    (c mu : ℝ) (bb : Bool) {x y : ℕ} (hx : x < beads P) (hy : y < beads P) (c1 c2 : Comp) :
    codeEntry W P c mu bb x c1 y c2 = compSign s c1 * (compSign s c2
      * codeEntry W P c mu bb (beadMap P.Ns P.Nd σ τ x) c1 (beadMap P.Ns P.Nd σ τ y) c2) := by
  have hβ : Renum P.Ns P.Nd (beadMap P.Ns P.Nd σ τ) := renum_map hI.spheres hI.dumbs
  have sx := beadMap_sphere (Nd := P.Nd) (τ := τ) hI.spheres.lt x
  have sy := beadMap_sphere (Nd := P.Nd) (τ := τ) hI.spheres.lt y
  unfold codeEntry
  by_cases h1 : Silent P bb x y
  · rw [if_pos h1, if_pos ((silent_map hI.spheres hI.dumbs bb hx hy).mpr h1), mul_zero, mul_zero]
  rw [if_neg h1, if_neg (fun h => h1 ((silent_map hI.spheres hI.dumbs bb hx hy).mp h))]
  by_cases h2 : x = y
  · subst h2
    rw [if_pos rfl, if_pos rfl, beadSize_eq, hI.size x hx, ← mul_assoc]
    exact codeSelf_flip hs hp hW hX hK _ _ _ _ _
  rw [if_neg h2, if_neg (fun h => h2 (hβ.inj _ hx _ hy h)), beadSize_eq, beadPos_eq, hI.size x hx, hI.size y hy]
  have e : (decide (beadMap P.Ns P.Nd σ τ x < P.Ns ∧ beadMap P.Ns P.Nd σ τ y < P.Ns)) = decide (x < P.Ns ∧ y < P.Ns) := by
    apply decide_eq_decide.mpr
    omega
  have e2 : centre P x - centre P y
      = turnVec (signQ s) (centre P (beadMap P.Ns P.Nd σ τ x) - centre P (beadMap P.Ns P.Nd σ τ y)) := hI.apart x hx y hy
  rw [e, e2, sep_turn hI.orth, turnVec_sign, codeMob_flip hs hX hK]
  ring

theorem box_far_image {n : ℕ} {bl tr Ot : Vec3} {Et : Mat3} (hs : Signs s) (hI : SelfImage P (signQ s) σ τ)
    (hP : Boxed n bl tr Ot Et P) (hb : BoxKeeps Ot Et s) (mu : ℝ) (bb : Bool) :
    Commutes P (signQ s) σ τ (generate_Minfinity_periodic n P bl tr mu Ot Et bb) := by
  have hβ : Renum P.Ns P.Nd (beadMap P.Ns P.Nd σ τ) := renum_map hI.spheres hI.dumbs
  obtain ⟨hX, hK⟩ := box_flip hs n bl tr Ot Et hb
  intro v v' hv
  refine acts_dumb_mob hβ (B := (boxMatrix n bl tr Ot Et P mu bb).get) (B' := (boxMatrix n bl tr Ot Et P mu bb).get)
    (fun φ i hi => C54_dumbbell_coordinates n bl tr Ot Et P mu bb φ hi)
    (fun φ i hi => C54_dumbbell_coordinates n bl tr Ot Et P mu bb φ hi) (fun f f' hf => ?_) hv
  refine acts_mul hβ (dual_turnK hI.orth) (fun x c1 y c2 hx hy => ?_) hf
  have hxn : x < beads P := owns_lt (owns_kind hx)
  have hyn : y < beads P := owns_lt (owns_kind hy)
  simp only [mix_turnK, turnComp_sign hs]
  rw [boxEntry hP mu bb hx hy, boxEntry hP mu bb (hβ.hasRow hx) (hβ.hasRow hy)]
  exact codeEntry_image hs hI hP.proper.1 hP.proper.2 hX hK _ _ _ hxn hyn c1 c2

/-! ## The near field -/

theorem systemNear_move (hσ : Reorders P.Ns σ) (hτ : Reorders P.Nd τ)
    (size : ∀ x < beads P, radius P (beadMap P.Ns P.Nd σ τ x) = radius P x) {T : ScalarTable}
    (hrec : TableBalanced T P) {link : ℕ → ℕ → Option ((Fin 3 → ℝ) × ℝ)} (hmut : Mutual (beads P) link) (bb : Bool)
    {x y : ℕ} (hxn : x < beads P) (hyn : y < beads P) (c1 c2 : Comp) :
    systemNear P.Ns (beads P) bb (radius P) (tableScal T) link
        (beadMap P.Ns P.Nd σ τ x) c1 (beadMap P.Ns P.Nd σ τ y) c2
      = systemNear P.Ns (beads P) bb (radius P) (tableScal T) (fun u v => link
        (beadMap P.Ns P.Nd σ τ u) (beadMap P.Ns P.Nd σ τ v)) x c1 y c2 := by
  have hβ : Renum P.Ns P.Nd (beadMap P.Ns P.Nd σ τ) := renum_map hσ hτ
  have lt : ∀ u < beads P, beadMap P.Ns P.Nd σ τ u < beads P := fun u hu => hβ.lt hu
  have rx := size x hxn
  have ry := size y hyn
  symm
  unfold systemNear
  by_cases e : x = y
  · subst e
    rw [if_pos rfl, if_pos rfl]
    have maps : Set.MapsTo (beadMap P.Ns P.Nd σ τ) (Finset.range (beads P)) (Finset.range (beads P)) :=
      fun z hz => Finset.mem_coe.mpr (Finset.mem_range.mpr (lt z (Finset.mem_range.mp hz)))
    have inj : Set.InjOn (beadMap P.Ns P.Nd σ τ) (Finset.range (beads P)) := fun u hu v hv h =>
      hβ.inj _ (Finset.mem_range.mp hu) _ (Finset.mem_range.mp hv) h
    refine Finset.sum_nbij (beadMap P.Ns P.Nd σ τ) maps inj
      (Finset.surjOn_of_injOn_of_card_le _ maps inj le_rfl) ?_
    intro z hz
    have hz := Finset.mem_range.mp hz
    rw [rx, size z hz]
    refine if_congr ?_ rfl rfl
    exact ⟨fun h => by rw [h], fun h => hβ.inj _ hz _ hxn h⟩
  · have e' : beadMap P.Ns P.Nd σ τ x ≠ beadMap P.Ns P.Nd σ τ y := fun h => e (hβ.inj _ hxn _ hyn h)
    have hsx := beadMap_sphere (Nd := P.Nd) (τ := τ) hσ.lt x
    have hsy := beadMap_sphere (Nd := P.Nd) (τ := τ) hσ.lt y
    rw [if_neg e, if_neg e', rx, ry]
    refine if_congr (by rw [hsx, hsy]) rfl ?_
    dsimp only
    rcases hmut _ (lt x hxn) _ (lt y hyn) e' with ⟨h, -⟩ | ⟨d, q, hd, h, -⟩
    · rw [h]
    · rw [h]
      exact nearPair_first (hrec _ hxn _ hyn e q) hd _ _ c1 c2

theorem box_near_image (hI : SelfImage P Q σ τ) {bl tr Ot : Vec3} {Et B : Mat3} (hL : ∀ i, bl i < tr i)
    (hB : FoldedBox (fun i => tr i - bl i) Ot Et B) (hsp : Spans B) (hP : CellSensible B P) {k : ℝ} (hk : 0 ≤ k)
    {T : ScalarTable} (hT : CellTabulated B T.lam P k) (hrec : TableBalanced T P) (hlk : LinksKept B k P Q σ τ) {mu : ℝ}
    {bb : Bool} {N : NDMat} (h : generate_R2Bexact_periodic T P k mu bl tr Ot Et bb = some N) :
    Commutes P Q σ τ N := by
  have hβ : Renum P.Ns P.Nd (beadMap P.Ns P.Nd σ τ) := renum_map hI.spheres hI.dumbs
  have lt : ∀ u < beads P, beadMap P.Ns P.Nd σ τ u < beads P := fun u hu => hβ.lt hu
  obtain ⟨l, M, hl, h1, h2, h3, -, h5⟩ := C75_entry hL hB hsp hP hk hT bb
  obtain ⟨l', M', N', hl', h1', hN', -, -, -, h4⟩ := C75_symmetric hL hB hsp hP hk hT mu bb
  obtain rfl := Option.some.inj (h.symm.trans hN')
  obtain rfl := Option.some.inj (hl.symm.trans hl')
  obtain rfl := Option.some.inj (h1.symm.trans h1')
  have hmut := box_mutual hL hB hsp hP hk
  intro v v' hv
  have hact : ∀ φ i, i < 11 * P.Ns + 6 * P.Nd → mulVec (side P) N.get (toDumbVel P.Ns P.Nd φ) i
      = toDumbForce P.Ns P.Nd (mulVec (side P) (fun i j => mu * M.get i j) φ) i := by
    intro φ i hi
    refine (h4 φ i hi).trans ?_
    congr 1
    funext j
    simp only [mulVec, Finset.mul_sum, mul_assoc]
  refine acts_dumb_res hβ (B := fun i j => mu * M.get i j) (B' := fun i j => mu * M.get i j) hact hact
    (fun w w' hw => ?_) hv
  have aB : Acts P.Ns P.Nd (turnK Q) (beadMap P.Ns P.Nd σ τ) (mulVec (side P) M.get w) (mulVec (side P) M.get w') := by
    refine acts_mul hβ (dual_turnK hI.orth) (fun x c1 y c2 hx hy => ?_) hw
    have hxn : x < beads P := owns_lt (owns_kind hx)
    have hyn : y < beads P := owns_lt (owns_kind hy)
    rw [h5 x c1 y c2 hx hy]
    refine Eq.trans ?_ (mix2_congr (K := turnK Q) (K' := turnK Q) (hβ.hasRow hx) (hβ.hasRow hy) fun d1 d2 g1 g2 =>
      (h5 _ d1 _ d2 g1 g2).symm)
    simp only [mix_turnK, systemNear_move hI.spheres hI.dumbs hI.size hrec hmut bb hxn hyn]
    refine systemNear_turn hI.orth P.Ns (beads P) bb (radius P) (tableScal T) (fun u hu v hv e => hlk u hu v hv e)
      (fun u hu v hv e p hp => ?_) hxn hyn c1 c2
    rcases hmut _ (lt u hu) _ (lt v hv) (fun h => e (hβ.inj _ hu _ hv h)) with ⟨g, -⟩ | ⟨d, q, hd, g, -⟩
    · rw [g] at hp; cases hp
    · rw [g] at hp
      cases hp
      exact hd
  have := acts_smul mu aB
  simp only [mulVec, Finset.mul_sum, ← mul_assoc] at this
  exact this

/-! ## Together -/

theorem commutes_add {A C : NDMat} (hA : Commutes P Q σ τ A) (hC : Commutes P Q σ τ C) : Commutes P Q σ τ (A.add C) := by
  intro v v' hv
  have := acts_add (hA v v' hv) (hC v v' hv)
  have e : ∀ (v : ℕ → ℝ), mulVec (side P) (A.add C).get v
      = fun i => mulVec (side P) A.get v i + mulVec (side P) C.get v i := by
    intro v; funext i
    simp only [mulVec, NDMat.add, add_mul, Finset.sum_add_distrib]
  rw [e, e]
  exact this

theorem box_grand_image (hs : Signs s) (hI : SelfImage P (signQ s) σ τ) {n : ℕ} {T : ScalarTable}
    {input : Config → ℝ → ℝ → Vel → Option NDMat → Option UserInput} {bb : Bool} {S : Settings} {last : NDMat}
    {reg : Bool} {u : UserInput} {R C : NDMat} {B : Mat3} (hB : FoldedBox (fun i => u.tr i - u.bl i) u.Ot u.Et B)
    (hsp : Spans B) (hP : Boxed n u.bl u.tr u.Ot u.Et P) (hC : CellSensible B P) (hk : 0 ≤ S.cutoff_factor)
    (hT : CellTabulated B T.lam P S.cutoff_factor) (hrec : TableBalanced T P) (hb : BoxKeeps u.Ot u.Et s)
    (hlk : LinksKept B S.cutoff_factor P (signQ s) σ τ) (hl : reg = false → Commutes P (signQ s) σ τ last)
    (h : generate_grand_resistance_matrix_periodic (boxWorld n T input bb) S P last reg u = some (R, C)) :
    Commutes P (signQ s) σ τ R ∧ Commutes P (signQ s) σ τ C := by
  have hβ : Renum P.Ns P.Nd (beadMap P.Ns P.Nd σ τ) := renum_map hI.spheres hI.dumbs
  have hL : ∀ i, u.bl i < u.tr i := fun i => lt_trans (by norm_num) (hP.edges i)
  obtain ⟨-, h1, h2, h3⟩ := box_some h
  have cC : Commutes P (signQ s) σ τ C := by
    cases reg
    · obtain rfl := Option.some.inj h1
      exact hl rfl
    · rw [if_pos rfl] at h1
      have d := Minfinity_periodic_dims n P u.bl u.tr u.mu u.Ot u.Et bb
      intro v v' hv
      exact acts_inv hβ d.1 d.1 h1 h1 (fun f f' hf => box_far_image hs hI hP hb u.mu bb f f' hf) hv
  refine ⟨?_, cC⟩
  cases hU : S.use_Minfinity_only
  · obtain ⟨N, hN, rfl⟩ := h2 hU
    exact commutes_add cC (box_near_image hI hL hB hsp hC hk hT hrec hlk hN)
  · rw [h3 hU]
    exact cC

end SD.Sign
