import Verif.Lemmas.NearTurn

/-!
# From entries of the two parts of the grand resistance matrix to grand vectors
-/

set_option autoImplicit false

namespace SD.Cov

open Spec

variable {β : ℕ → ℕ} {Kl Km Kd : Comp → Comp → ℝ}

theorem mix2_congr {Ns Nd : ℕ} {K K' : Comp → Comp → ℝ} {x y : ℕ} {c1 c2 : Comp} {F G : Comp → Comp → ℝ}
    (hx : HasRow Ns Nd x c1) (hy : HasRow Ns Nd y c2)
    (h : ∀ d1 d2, HasRow Ns Nd x d1 → HasRow Ns Nd y d2 → F d1 d2 = G d1 d2) :
    (mix K c1 fun d1 => mix K' c2 fun d2 => F d1 d2) = mix K c1 fun d1 => mix K' c2 fun d2 => G d1 d2 := by
  have h2 : ∀ d1, HasRow Ns Nd x d1 → (mix K' c2 fun d2 => F d1 d2) = mix K' c2 fun d2 => G d1 d2 := by
    intro d1 h1
    apply mix_congr
    cases c2 with
    | f _ => exact fun j => h _ (.f j) h1 hy
    | t _ => exact fun j => h _ (.t j) h1 hy
    | s _ => exact fun j => h _ (.s j) h1 hy
  apply mix_congr
  cases c1 with
  | f _ => exact fun j => h2 (.f j) hx
  | t _ => exact fun j => h2 (.t j) hx
  | s _ => exact fun j => h2 (.s j) hx

theorem far_acts {P P' : PosData} {mu : ℝ} {bb bb' : Bool} (hn : P'.Ns = P.Ns) (hd : P'.Nd = P.Nd)
    (hβ : Renum P.Ns P.Nd β) (hP : Sensible P) (hP' : Sensible P') (dual : Dual Kd Kl)
    (h : ∀ x c1 y c2, HasRow P.Ns P.Nd x c1 → HasRow P.Ns P.Nd y c2 →
      systemMob P.Ns bb' (centre P') (radius P') mu x c1 y c2
        = mix Km c1 fun d1 => mix Kd c2 fun d2 => systemMob P.Ns bb (centre P) (radius P) mu (β x) d1 (β y) d2)
    (f f' : ℕ → ℝ) (hf : Acts P.Ns P.Nd Kl β f f') :
    Acts P.Ns P.Nd Km β (mulVec (side P) (farB P mu bb).get f) (mulVec (side P) (farB P' mu bb').get f') := by
  refine acts_mul hβ dual (fun x c1 y c2 hx hy => ?_) hf
  have e := C48_entry hP' mu bb' (x := x) (y := y) (c1 := c1) (c2 := c2) (by rw [hn, hd]; exact hx)
    (by rw [hn, hd]; exact hy)
  rw [hn] at e
  refine e.trans ((h x c1 y c2 hx hy).trans (mix2_congr (hβ.hasRow hx) (hβ.hasRow hy) fun d1 d2 h1 h2 => ?_))
  exact (C48_entry hP mu bb h1 h2).symm

/-- The near-field matrices in bead coordinates behave well under a change. -/
abbrev NearActs (T : ScalarTable) (P P' : PosData) (κ : ℝ) (bb : Bool) (Kl Km : Comp → Comp → ℝ) (β : ℕ → ℕ) : Prop :=
  ∃ B B', generate_R2Bexact_loop T (NDMat.zeros (side P) (side P)) P.Ns P.Nd P.beadSize bb
        (close_particles (beads P) P.beadPos P.beadSize κ) = some B ∧ (B.rows = side P ∧ B.cols = side P) ∧
      generate_R2Bexact_loop T (NDMat.zeros (side P') (side P')) P'.Ns P'.Nd P'.beadSize bb
        (close_particles (beads P') P'.beadPos P'.beadSize κ) = some B' ∧ (B'.rows = side P' ∧ B'.cols = side P') ∧
      ∀ v v', Acts P.Ns P.Nd Km β v v' →
        Acts P.Ns P.Nd Kl β (mulVec (side P) B.get v) (mulVec (side P) B'.get v')

theorem near_acts {T : ScalarTable} {P P' : PosData} {κ : ℝ} (bb : Bool) (hn : P'.Ns = P.Ns) (hd : P'.Nd = P.Nd)
    (hβ : Renum P.Ns P.Nd β) (hP : Sensible P) (hP' : Sensible P') (hκ : 0 < κ) (hT : Tabulated T.lam P κ)
    (hT' : Tabulated T.lam P' κ) (dual : Dual Kd Km)
    (h : ∀ x c1 y c2, HasRow P.Ns P.Nd x c1 → HasRow P.Ns P.Nd y c2 →
      systemNear P.Ns (beads P) bb (radius P') (tableScal T) (openLink κ (centre P') (radius P')) x c1 y c2
        = mix Kl c1 fun d1 => mix Kd c2 fun d2 => systemNear P.Ns (beads P) bb (radius P) (tableScal T)
            (openLink κ (centre P) (radius P)) (β x) d1 (β y) d2) :
    NearActs T P P' κ bb Kl Km β := by
  obtain ⟨B, e1, r1, c1, -, e2⟩ := near_entry hP hκ hT bb
  obtain ⟨B', e1', r1', c1', -, e2'⟩ := near_entry hP' hκ hT' bb
  refine ⟨B, B', e1, ⟨r1, c1⟩, e1', ⟨r1', c1'⟩, fun v v' hv => ?_⟩
  refine acts_mul hβ dual (fun x c1 y c2 hx hy => ?_) hv
  have e := e2' x c1 y c2 (by rw [hn, hd]; exact hx) (by rw [hn, hd]; exact hy)
  have hb : beads P' = beads P := by unfold beads; rw [hn, hd]
  rw [hn, hb] at e
  refine e.trans ((h x c1 y c2 hx hy).trans (mix2_congr (hβ.hasRow hx) (hβ.hasRow hy) fun d1 d2 h1 h2 => ?_))
  exact (e2 _ _ _ _ h1 h2).symm

/-- The near-field matrix that is returned. -/
theorem near_dumb {T : ScalarTable} {P P' : PosData} {κ mu : ℝ} {bb : Bool} (hn : P'.Ns = P.Ns) (hd : P'.Nd = P.Nd)
    (hβ : Renum P.Ns P.Nd β)
    (near : NearActs T P P' κ bb Kl Km β) :
    ∃ N N', generate_R2Bexact T P κ mu bb = some N ∧ generate_R2Bexact T P' κ mu bb = some N' ∧
      ∀ v v', Acts P.Ns P.Nd Km β v v' →
        Acts P.Ns P.Nd Kl β (mulVec (side P) N.get v) (mulVec (side P) N'.get v') := by
  have hs : side P' = side P := by unfold side; rw [hn, hd]
  obtain ⟨B, B', e1, dB, e2, dB', aB⟩ := near
  obtain ⟨N1, f1, -, -, -, f4⟩ := R2B_mulVec (mu := mu) e1 dB
  obtain ⟨N2, g1, -, -, -, g4⟩ := R2B_mulVec (mu := mu) e2 dB'
  refine ⟨N1, N2, f1, g1, fun v v' hv => ?_⟩
  refine acts_dumb_res hβ (B := fun i j => mu * B.get i j) (B' := fun i j => mu * B'.get i j)
    (fun φ i hi => ?_) (fun φ i hi => ?_) (fun v v' hv => ?_) hv
  · refine (f4 φ i hi).trans ?_
    congr 1
    funext j
    simp only [mulVec, Finset.mul_sum, mul_assoc]
    rfl
  · have := g4 φ i (by rw [hs]; exact hi)
    rw [hs, hn, hd] at this
    refine this.trans ?_
    congr 1
    funext j
    simp only [mulVec, Finset.mul_sum, mul_assoc]
    rfl
  · have := acts_smul mu (aB v v' hv)
    simp only [mulVec, Finset.mul_sum, ← mul_assoc] at this
    exact this

/-! ## Rescaling -/

section
variable {k : ℝ} (hk : 0 < k)
include hk

/-- Coefficients of loads and of motions. -/
noncomputable def loadK (k : ℝ) : Comp → Comp → ℝ := diagK fun c => k ^ lengths c
noncomputable def motionK (k : ℝ) : Comp → Comp → ℝ := diagK fun c => 1 / k ^ (1 + lengths c)

theorem acts_load {Ns Nd : ℕ} {f f' : ℕ → ℝ} :
    Acts Ns Nd (loadK k) (fun u => u) f f' ↔ LoadsRescaled Ns Nd k f f' := by
  unfold Acts LoadsRescaled loadK
  simp only [mix_diagK]

theorem acts_motion {Ns Nd : ℕ} {v v' : ℕ → ℝ} :
    Acts Ns Nd (motionK k) (fun u => u) v v' ↔ MotionsRescaled Ns Nd k v v' := by
  unfold Acts MotionsRescaled motionK
  simp only [mix_diagK]
  refine forall_congr' fun u => forall_congr' fun c => forall_congr' fun _ => ?_
  have : k ^ (1 + lengths c) ≠ 0 := by positivity
  constructor
  · intro h; rw [h]; field_simp
  · intro h; rw [← h]; field_simp

theorem undo_load (Ns Nd : ℕ) : Undo Ns Nd (loadK k) fun u => u :=
  undo_diagK (Renum.id Ns Nd) (w' := fun c => 1 / k ^ lengths c) fun c => by
    have : k ^ lengths c ≠ 0 := by positivity
    field_simp

theorem undo_motion (Ns Nd : ℕ) : Undo Ns Nd (motionK k) fun u => u :=
  undo_diagK (Renum.id Ns Nd) (w' := fun c => k ^ (1 + lengths c)) fun c => by
    have : k ^ (1 + lengths c) ≠ 0 := by positivity
    field_simp

theorem far_rescaled {P : PosData} {mu : ℝ} {bb : Bool} (hP : Sensible P) (hP' : Sensible (rescaled P k)) (f f' : ℕ → ℝ)
    (hf : Acts P.Ns P.Nd (loadK k) (fun u => u) f f') :
    Acts P.Ns P.Nd (motionK k) (fun u => u) (mulVec (side P) (farB P mu bb).get f)
      (mulVec (side P) (farB (rescaled P k) mu bb).get f') := by
  refine far_acts (P := P) (P' := rescaled P k) (Kd := diagK fun c => 1 / k ^ lengths c) rfl rfl (Renum.id _ _) hP hP'
    (dual_diagK fun c => ?_) (fun x c1 y c2 _ _ => ?_) f f' hf
  · have : k ^ lengths c ≠ 0 := by positivity
    field_simp
  · simp only [motionK, mix_diagK]
    rw [centre_rescaled, radius_rescaled, systemMob_scale hk]
    have h1 : k ^ lengths c1 ≠ 0 := by positivity
    have h2 : k ^ lengths c2 ≠ 0 := by positivity
    rw [pow_add, pow_one]
    field_simp

theorem near_rescaled {T : ScalarTable} {P : PosData} {κ : ℝ} (bb : Bool) (hP : Sensible P)
    (hP' : Sensible (rescaled P k)) (hκ : 0 < κ) (hT : Tabulated T.lam P κ) :
    NearActs T P (rescaled P k) κ bb (loadK k) (motionK k) fun u => u :=
  near_acts (T := T) (P := P) (P' := rescaled P k) (κ := κ) (Kl := loadK k) (Km := motionK k)
    (Kd := diagK fun c => k ^ (1 + lengths c)) bb rfl rfl
    (Renum.id _ _) hP hP' hκ hT (tabulated_rescaled hk hT)
    (dual_diagK fun c => by
      have : k ^ (1 + lengths c) ≠ 0 := by positivity
      field_simp)
    (fun x c1 y c2 _ _ => by
      simp only [loadK, mix_diagK]
      have e : openLink κ (fun u i => k * centre P u i) (fun u => k * radius P u) = openLink κ (centre P) (radius P) := by
        funext x y; exact openLink_scale hk κ _ _ _ _
      rw [centre_rescaled, radius_rescaled, e, systemNear_scale hk, pow_add, pow_one]
      ring)

theorem drag_rescaled (P : PosData) (v v' : ℕ → ℝ) (hv : Acts P.Ns P.Nd (motionK k) (fun u => u) v v') :
    Acts P.Ns P.Nd (loadK k) (fun u => u) (fun i => drag P i * v i) fun i => drag (rescaled P k) i * v' i := by
  refine drag_acts (P := P) (P' := rescaled P k) rfl rfl (Renum.id _ _) (fun u c F _ => ?_) v v' hv
  simp only [loadK, motionK, mix_diagK]
  cases c <;> simp only [dragComp, radius_rescaled, lengths]
  · show (if u < P.Ns then _ else _) * _ = _
    split_ifs <;> field_simp <;> ring
  · field_simp; ring
  · field_simp; ring

end

/-! ## Rotation -/

section
variable {Q : Fin 3 → Fin 3 → ℝ} (hQ : Orthogonal Q)

omit hQ in
theorem acts_turn {Ns Nd : ℕ} {f f' : ℕ → ℝ} :
    Acts Ns Nd (turnK Q) (fun u => u) f f' ↔ GrandTurned Ns Nd Q f f' := by
  unfold Acts GrandTurned
  simp only [mix_turnK]

theorem radius_turned (P : PosData) (Q : Fin 3 → Fin 3 → ℝ) : radius (turned P Q) = radius P := rfl

include hQ

theorem tabulated_turned {lams : List ℝ} {P : PosData} {κ : ℝ} (h : Tabulated lams P κ) :
    Tabulated lams (turned P Q) κ := by
  intro x hx y hy hxy
  have hc : centre (turned P Q) = fun u => turnVec Q (centre P u) := funext fun u => centre_turned P Q u
  rw [hc, radius_turned, openLink_turn hQ] at hxy
  refine h x hx y hy (hxy.imp id fun h2 h3 => h2 ?_)
  rw [h3]; rfl

theorem far_turned {P : PosData} {mu : ℝ} {bb : Bool} (hP : Sensible P) (f f' : ℕ → ℝ)
    (hf : Acts P.Ns P.Nd (turnK Q) (fun u => u) f f') :
    Acts P.Ns P.Nd (turnK Q) (fun u => u) (mulVec (side P) (farB P mu bb).get f)
      (mulVec (side P) (farB (turned P Q) mu bb).get f') := by
  refine far_acts (P := P) (P' := turned P Q) (Kd := turnK Q) rfl rfl (Renum.id _ _) hP (turned_sensible hP hQ)
    (dual_turnK hQ) (fun x c1 y c2 hx hy => ?_) f f' hf
  have hc : centre (turned P Q) = fun u => turnVec Q (centre P u) := funext fun u => centre_turned P Q u
  have hxn : x < beads P := owns_lt (owns_kind hx)
  have hyn : y < beads P := owns_lt (owns_kind hy)
  simp only [mix_turnK]
  rw [hc, radius_turned]
  exact systemMob_turn hQ P.Ns bb (centre P) (radius P) mu x y c1 c2 fun hxy =>
    (sep_ne (hP.radius_pos x hxn) (hP.radius_pos y hyn) (hP.apart x hxn y hyn hxy)).1

omit hQ in
theorem openLink_unit {P : PosData} {κ : ℝ} (hP : Sensible P) (x : ℕ) (hx : x < beads P) (y : ℕ) (hy : y < beads P)
    (hxy : x ≠ y) (p : (Fin 3 → ℝ) × ℝ) (hp : p ∈ openLink κ (centre P) (radius P) x y) : dotp p.1 p.1 = 1 := by
  unfold openLink at hp
  dsimp only at hp
  split_ifs at hp
  · obtain rfl := Option.some.inj hp
    have h0 := hP.apart y hy x hx (Ne.symm hxy)
    have h1 : 0 < len fun i => centre P y i - centre P x i := lt_trans (by norm_num) h0
    have h2 : (len fun i => centre P y i - centre P x i) ^ 2 = ∑ i, (centre P y i - centre P x i) ^ 2 :=
      Real.sq_sqrt (Finset.sum_nonneg fun _ _ => sq_nonneg _)
    rw [Fin.sum_univ_three] at h2
    simp only [dotp]
    field_simp
    linarith
  · exact absurd hp (by simp)

theorem near_turned {T : ScalarTable} {P : PosData} {κ : ℝ} (bb : Bool) (hP : Sensible P) (hκ : 0 < κ)
    (hT : Tabulated T.lam P κ) : NearActs T P (turned P Q) κ bb (turnK Q) (turnK Q) fun u => u :=
  near_acts (T := T) (P := P) (P' := turned P Q) (κ := κ) (Kl := turnK Q) (Km := turnK Q) (Kd := turnK Q) bb rfl rfl
    (Renum.id _ _) hP (turned_sensible hP hQ) hκ hT (tabulated_turned hQ hT) (dual_turnK hQ)
    (fun x c1 y c2 hx hy => by
      have hc : centre (turned P Q) = fun u => turnVec Q (centre P u) := funext fun u => centre_turned P Q u
      simp only [mix_turnK]
      rw [hc, radius_turned]
      exact systemNear_turn hQ P.Ns (beads P) bb (radius P) (tableScal T)
        (fun x _ y _ _ => openLink_turn hQ κ _ _ x y) (openLink_unit hP) (owns_lt (owns_kind hx))
        (owns_lt (owns_kind hy)) c1 c2)

omit hQ in
theorem drag_turned (P : PosData) (Q : Fin 3 → Fin 3 → ℝ) (v v' : ℕ → ℝ)
    (hv : Acts P.Ns P.Nd (turnK Q) (fun u => u) v v') :
    Acts P.Ns P.Nd (turnK Q) (fun u => u) (fun i => drag P i * v i) fun i => drag (turned P Q) i * v' i :=
  drag_acts (P := P) (P' := turned P Q) rfl rfl (Renum.id _ _) (fun u c F _ => rfl) v v' hv

end

/-! ## Renumbering -/

section
variable {P : PosData} {σ τ : ℕ → ℕ} (hσ : ∀ i < P.Ns, σ i < P.Ns) (hτ : ∀ i < P.Nd, τ i < P.Nd)
  (iσ : ∀ i < P.Ns, ∀ j < P.Ns, σ i = σ j → i = j) (iτ : ∀ i < P.Nd, ∀ j < P.Nd, τ i = τ j → i = j)

/-- Coefficients that keep all components. -/
noncomputable def oneK : Comp → Comp → ℝ := diagK fun _ => 1

omit hσ hτ iσ iτ in
theorem acts_renum {Ns Nd : ℕ} {f f' : ℕ → ℝ} :
    Acts Ns Nd oneK (beadMap Ns Nd σ τ) f f' ↔ GrandRenumbered Ns Nd σ τ f f' := by
  unfold Acts GrandRenumbered oneK
  simp only [mix_diagK, one_mul]

include hσ hτ iσ iτ in
theorem renum_beadMap : Renum P.Ns P.Nd (beadMap P.Ns P.Nd σ τ) := by
  refine ⟨fun u hu => ?_, fun d hd => ⟨τ d, hτ d hd, ?_, ?_⟩, fun u hu v hv e => beadMap_inj hσ hτ iσ iτ hu hv e⟩
  · have := hσ u hu
    simp only [beadMap, if_pos hu]; exact this
  · simp only [beadMap]
    rw [if_neg (by omega), if_pos (by omega), show P.Ns + d - P.Ns = d by omega]
  · simp only [beadMap]
    rw [if_neg (by omega), if_neg (by omega), show P.Ns + P.Nd + d - (P.Ns + P.Nd) = d by omega]

include hσ hτ in
theorem drag_renum (hβ : Renum P.Ns P.Nd (beadMap P.Ns P.Nd σ τ)) (v v' : ℕ → ℝ)
    (hv : Acts P.Ns P.Nd oneK (beadMap P.Ns P.Nd σ τ) v v') :
    Acts P.Ns P.Nd oneK (beadMap P.Ns P.Nd σ τ) (fun i => drag P i * v i)
      fun i => drag (relabel P σ τ) i * v' i := by
  refine drag_acts (P := P) (P' := relabel P σ τ) rfl rfl hβ (fun u c F hu => ?_) v v' hv
  have hr := (centre_relabel P hσ hτ (u := u) (owns_lt (owns_kind hu))).2
  have hs := beadMap_sphere (Nd := P.Nd) (τ := τ) hσ u
  congr 1
  cases c <;> simp only [dragComp, hr]
  show (if u < P.Ns then _ else _) = _
  by_cases h : u < P.Ns
  · rw [if_pos h, if_pos (by by_contra hc; exact absurd (hs.mp (by omega)) (by omega))]
  · rw [if_neg h, if_neg (by have := hs.mpr (by omega); omega)]

end

end SD.Cov
