import Verif.Lemmas.CovarianceParts
import Verif.Lemmas.Scalars

/-!
# Far-field resistance of similar configurations of spheres
-/

set_option autoImplicit false

namespace SD.Cov

open Spec

/-- A vector relation between two matrices determines the entries of the second. -/
theorem entry_of_acts {Ns Nd : ℕ} {β : ℕ → ℕ} {Kl Km Kd : Comp → Comp → ℝ} (hβ : Renum Ns Nd β) (hd : Dual Kd Km)
    (um : Undo Ns Nd Km β) {R R' : ℕ → ℕ → ℝ}
    (h : ∀ v v', Acts Ns Nd Km β v v' →
      Acts Ns Nd Kl β (mulVec (11 * Ns + 6 * Nd) R v) (mulVec (11 * Ns + 6 * Nd) R' v'))
    {x y : ℕ} {c1 c2 : Comp} (hx : HasRow Ns Nd x c1) (hy : HasRow Ns Nd y c2) :
    R' (row Ns x c1) (row Ns y c2)
      = mix Kl c1 fun d1 => mix Kd c2 fun d2 => R (row Ns (β x) d1) (row Ns (β y) d2) := by
  classical
  have pick : ∀ i, ∃ p : ℕ × Comp, (∃ u c, HasRow Ns Nd u c ∧ row Ns u c = i) → HasRow Ns Nd p.1 p.2 ∧ row Ns p.1 p.2 = i := by
    intro i
    by_cases hi : ∃ u c, HasRow Ns Nd u c ∧ row Ns u c = i
    · obtain ⟨u, c, h⟩ := hi
      exact ⟨(u, c), fun _ => h⟩
    · exact ⟨(0, .f 0), fun h => absurd h hi⟩
  choose g hg using pick
  have hg' : ∀ u c, HasRow Ns Nd u c → g (row Ns u c) = (u, c) := by
    intro u c hu
    obtain ⟨h1, h2⟩ := hg (row Ns u c) ⟨u, c, hu, rfl⟩
    obtain ⟨h3, h4⟩ := row_inj h1 hu h2
    exact Prod.ext h3 h4
  let D : ℕ → ℕ → ℝ := fun i j => mix Kl (g i).2 fun d1 => mix Kd (g j).2 fun d2 =>
    R (row Ns (β (g i).1) d1) (row Ns (β (g j).1) d2)
  have hD : ∀ x c1 y c2, HasRow Ns Nd x c1 → HasRow Ns Nd y c2 → D (row Ns x c1) (row Ns y c2)
      = mix Kl c1 fun d1 => mix Kd c2 fun d2 => R (row Ns (β x) d1) (row Ns (β y) d2) := by
    intro x c1 y c2 hx hy
    simp only [D, hg' x c1 hx, hg' y c2 hy]
  rw [← hD x c1 y c2 hx hy]
  obtain ⟨v, hv⟩ := um.onto fun j => if j = row Ns y c2 then 1 else 0
  have e1 := h _ _ hv x c1 hx
  have e2 := acts_mul hβ hd hD hv x c1 hx
  have e3 := e1.trans e2.symm
  have hlt := row_lt hy
  simp only [mulVec, mul_ite, mul_one, mul_zero] at e3
  rw [Finset.sum_ite_eq' _ _, Finset.sum_ite_eq' _ _, if_pos (Finset.mem_range.mpr hlt),
    if_pos (Finset.mem_range.mpr hlt)] at e3
  exact e3

/-- The spheres of `P'` are those of `P`, renumbered, turned, enlarged by `k` and moved. -/
structure Similar (P P' : PosData) (β : ℕ → ℕ) (Q : Fin 3 → Fin 3 → ℝ) (k : ℝ) (t : Fin 3 → ℝ) : Prop where
  Ns : P'.Ns = P.Ns
  Nd : P.Nd = 0
  Nd' : P'.Nd = 0
  renum : Renum P.Ns 0 β
  orth : Orthogonal Q
  pos : 0 < k
  sens : Sensible P
  sens' : Sensible P'
  centre : ∀ u < P.Ns, ∀ i, centre P' u i = t i + k * turnVec Q (centre P (β u)) i
  radius : ∀ u < P.Ns, radius P' u = k * radius P (β u)

section
variable {P P' : PosData} {β : ℕ → ℕ} {Q : Fin 3 → Fin 3 → ℝ} {k : ℝ} {t : Fin 3 → ℝ}

/-- Coefficients with a weight. -/
noncomputable def wK (w : Comp → ℝ) (K : Comp → Comp → ℝ) (c d : Comp) : ℝ := w c * K c d

/-- The weights depend on the kind of the component only. -/
def Kindly (w : Comp → ℝ) : Prop := ∀ c d, order c = order d → w c = w d

theorem mix_wK (w : Comp → ℝ) (K : Comp → Comp → ℝ) (c : Comp) (F : Comp → ℝ) :
    mix (wK w K) c F = w c * mix K c F := by
  cases c <;> simp only [mix, wK, Finset.mul_sum, mul_assoc]

theorem dual_wK {w w' : Comp → ℝ} {K L : Comp → Comp → ℝ} (h : ∀ c, w c * w' c = 1) (hd : Dual K L) :
    Dual (wK w K) (wK w' L) := by
  constructor <;> intro F G
  · rw [← hd.f]
    refine Finset.sum_congr rfl fun i _ => ?_
    rw [mix_wK, mix_wK]
    linear_combination (mix K (.f i) F * mix L (.f i) G) * h (.f i)
  · rw [← hd.t]
    refine Finset.sum_congr rfl fun i _ => ?_
    rw [mix_wK, mix_wK]
    linear_combination (mix K (.t i) F * mix L (.t i) G) * h (.t i)
  · rw [← hd.s]
    refine Finset.sum_congr rfl fun i _ => ?_
    rw [mix_wK, mix_wK]
    linear_combination (mix K (.s i) F * mix L (.s i) G) * h (.s i)

theorem mix_turn_back (hQ : Orthogonal Q) (c : Comp) (F : Comp → ℝ) :
    mix (turnK Q) c (fun d => mix (fun c d => turnK Q d c) d F) = F c := by
  have pick : ∀ {n : ℕ} {K : Fin n → Fin n → ℝ} (_ : ∀ a b, ∑ k, K a k * K b k = if a = b then 1 else 0)
      (F : Fin n → ℝ) (i : Fin n), ∑ j, K i j * ∑ l, K l j * F l = F i := by
    intro n K h F i
    have e : ∑ j, K i j * ∑ l, K l j * F l = ∑ l, (∑ j, K i j * K l j) * F l := by
      simp only [Finset.mul_sum, Finset.sum_mul]
      rw [Finset.sum_comm]
      exact Finset.sum_congr rfl fun _ _ => Finset.sum_congr rfl fun _ _ => by ring
    rw [e]
    simp only [h, ite_mul, one_mul, zero_mul, Finset.sum_ite_eq, Finset.mem_univ, if_true]
  have dd := det_sq hQ
  cases c with
  | f i => exact pick (K := Q) (fun a b => by rw [hQ a b]; rfl) (fun i => F (.f i)) i
  | t i =>
    refine pick (K := fun i j => det3 Q * Q i j) (fun a b => ?_) (fun i => F (.t i)) i
    have : ∑ k, det3 Q * Q a k * (det3 Q * Q b k) = ∑ k, Q a k * Q b k :=
      Finset.sum_congr rfl fun k _ => by linear_combination (Q a k * Q b k) * dd
    rw [this, hQ a b]; rfl
  | s p => exact pick (K := rep5 Q) (fun a b => rep5_orth hQ a b) (fun i => F (.s i)) p

theorem undo_wK {Ns Nd : ℕ} (hβ : Renum Ns Nd β) (hQ : Orthogonal Q) {w w' : Comp → ℝ} (h : ∀ c, w c * w' c = 1)
    (hw : Kindly w) : Undo Ns Nd (wK w (turnK Q)) β := by
  refine undo_of hβ (Kd := wK w' (turnK Q)) (K' := fun c d => w' c * turnK Q d c)
    (dual_wK (fun c => by rw [mul_comm]; exact h c) (dual_turnK hQ)) fun c F => ?_
  rw [mix_wK]
  have e : ∀ d, mix (fun c d => w' c * turnK Q d c) d F = w' d * mix (fun c d => turnK Q d c) d F :=
    fun d => mix_wK w' (fun c d => turnK Q d c) d F
  simp only [e]
  have h1 : (mix (turnK Q) c fun d => w' d * mix (fun c d => turnK Q d c) d F)
      = mix (turnK Q) c fun d => w' c * mix (fun c d => turnK Q d c) d F := by
    have hw' : ∀ c d, order c = order d → w' c = w' d := by
      intro c d hcd
      have h1 := h c
      have h2 := h d
      rw [hw c d hcd] at h1
      have : w d ≠ 0 := by rintro h0; rw [h0, zero_mul] at h2; exact one_ne_zero h2.symm
      exact mul_left_cancel₀ this (h1.trans h2.symm)
    apply mix_congr
    cases c with
    | f i => intro j; rw [hw' (.f j) (.f i) rfl]
    | t i => intro j; rw [hw' (.t j) (.t i) rfl]
    | s i => intro j; rw [hw' (.s j) (.s i) rfl]
  rw [h1, mix_mul', mix_turn_back hQ, ← mul_assoc, h, one_mul]

theorem lengths_kind {c d : Comp} (h : order c = order d) : lengths c = lengths d := by
  cases c <;> cases d <;> simp [order, lengths] at h ⊢

/-- The mobilities of similar configurations. -/
theorem similar_mob (h : Similar P P' β Q k t) (bb bb' : Bool) (mu : ℝ) {x y : ℕ} (hx : x < P.Ns) (hy : y < P.Ns)
    (c1 c2 : Comp) :
    systemMob P.Ns bb' (Spec.centre P') (Spec.radius P') mu x c1 y c2
      = 1 / (k * k ^ lengths c1 * k ^ lengths c2) * turnComp Q c1 fun d1 => turnComp Q c2 fun d2 =>
          systemMob P.Ns bb (Spec.centre P) (Spec.radius P) mu (β x) d1 (β y) d2 := by
  have hk := h.pos
  have hbx := h.renum.sphere x hx
  have hby := h.renum.sphere y hy
  unfold systemMob
  by_cases hxy : x = y
  · subst hxy
    simp only [if_true]
    rw [h.radius x hx, selfMob_scale hk, turnComp_self h.orth]
  · have hb : β x ≠ β y := fun e => hxy (h.renum.inj x (by omega) y (by omega) e)
    have n1 : ¬ (bb' = false ∧ P.Ns ≤ x ∧ P.Ns ≤ y) := by omega
    have n2 : ¬ (bb = false ∧ P.Ns ≤ β x ∧ P.Ns ≤ β y) := by omega
    simp only [if_neg hxy, if_neg hb, if_neg n1, if_neg n2, turnComp_mul]
    have hn : ∀ u < P.Ns, u < beads P := fun u hu => by unfold beads; omega
    have hs := (sep_ne (h.sens.radius_pos _ (hn _ hbx)) (h.sens.radius_pos _ (hn _ hby))
      (h.sens.apart _ (hn _ hbx) _ (hn _ hby) hb)).1
    have e : (fun i => Spec.centre P' x i - Spec.centre P' y i)
        = fun i => k * turnVec Q (fun i => Spec.centre P (β x) i - Spec.centre P (β y) i) i := by
      funext i
      rw [h.centre x hx, h.centre y hy, turnVec_sub]
      ring
    rw [e, h.radius x hx, h.radius y hy, sep_scale hk, pairMob_scale hk, sep_turn h.orth, pairMob_turn h.orth hs]
    ring

/-- **Far-field resistance of similar configurations.** -/
theorem similar_inv (h : Similar P P' β Q k t) {mu : ℝ} {bb : Bool} (bb' : Bool) {C : NDMat}
    (hC : (generate_Minfinity P mu bb).inv = some C) :
    ∃ C', (generate_Minfinity P' mu bb').inv = some C' ∧ ∀ x c1 y c2, x < P.Ns → y < P.Ns →
      C'.get (row P.Ns x c1) (row P.Ns y c2) = k * k ^ lengths c1 * k ^ lengths c2 *
        turnComp Q c1 fun d1 => turnComp Q c2 fun d2 => C.get (row P.Ns (β x) d1) (row P.Ns (β y) d2) := by
  have hk := h.pos
  have hQ := h.orth
  have hd : P'.Nd = P.Nd := by rw [h.Nd, h.Nd']
  have hβ : Renum P.Ns P.Nd β := by rw [h.Nd]; exact h.renum
  have hr : ∀ x c, x < P.Ns → HasRow P.Ns P.Nd x c := by
    intro x c hx
    cases c <;> simp only [HasRow] <;> omega
  have hr' : ∀ x c, HasRow P.Ns P.Nd x c → x < P.Ns := by
    intro x c hx
    have := h.Nd
    cases c <;> simp only [HasRow] at hx <;> omega
  set wl : Comp → ℝ := fun c => k ^ lengths c with hwl
  set wm : Comp → ℝ := fun c => 1 / (k * k ^ lengths c) with hwm
  set wl' : Comp → ℝ := fun c => 1 / k ^ lengths c with hwl'
  set wm' : Comp → ℝ := fun c => k * k ^ lengths c with hwm'
  have p1 : ∀ c, k ^ lengths c ≠ 0 := fun c => by positivity
  have e1 : ∀ c, wl c * wl' c = 1 := fun c => by have := p1 c; simp only [hwl, hwl']; field_simp
  have e2 : ∀ c, wm c * wm' c = 1 := fun c => by have := p1 c; simp only [hwm, hwm']; field_simp
  have k1 : Kindly wl := fun c d h => by simp only [hwl, lengths_kind h]
  have k2 : Kindly wm := fun c d h => by simp only [hwm, lengths_kind h]
  have ul : Undo P.Ns P.Nd (wK wl (turnK Q)) β := undo_wK hβ hQ e1 k1
  have um : Undo P.Ns P.Nd (wK wm (turnK Q)) β := undo_wK hβ hQ e2 k2
  have far := far_acts (P := P) (P' := P') (mu := mu) (bb := bb) (bb' := bb') (Kl := wK wl (turnK Q)) (Km := wK wm (turnK Q))
    (Kd := wK wl' (turnK Q)) h.Ns hd hβ h.sens h.sens' (dual_wK (fun c => by rw [mul_comm]; exact e1 c) (dual_turnK hQ))
    fun x c1 y c2 hx hy => by
      simp only [mix_wK, mix_mul', mix_turnK]
      rw [similar_mob h bb bb' mu (hr' _ _ hx) (hr' _ _ hy)]
      simp only [hwm, hwl']
      have := p1 c1
      have := p1 c2
      field_simp
  have hM := far_dumb h.Ns hd hβ far
  have hs : side P' = side P := by unfold side; rw [h.Ns, hd]
  have d1 := Minfinity_dims P mu bb
  have d2 := Minfinity_dims P' mu bb'
  rw [hs] at d2
  obtain ⟨C', hC'⟩ := inv_exists hβ d1 d2 hC ul um hM
  refine ⟨C', hC', fun x c1 y c2 hx hy => ?_⟩
  have := entry_of_acts (Kd := wK wm' (turnK Q)) hβ (dual_wK (fun c => by rw [mul_comm]; exact e2 c) (dual_turnK hQ)) um
    (fun v v' hv => acts_inv hβ d1.1 d2.1 hC hC' hM hv) (hr x c1 hx) (hr y c2 hy)
  rw [this]
  simp only [mix_wK, mix_mul', mix_turnK, hwl, hwm']
  ring

end

end SD.Cov
