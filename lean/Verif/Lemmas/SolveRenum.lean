import Verif.Lemmas.SolveTurn
import Verif.Spec.Renumbered

/-!
# Solving for reordered particles
-/

set_option autoImplicit false

open Finset

namespace SD.Reorder

open Spec Cov

/-! ## Reordered lists -/

section
variable {α β : Type} {n : ℕ} {σ : ℕ → ℕ}

theorem _root_.SD.Spec.Reorders.lt_iff (h : Reorders n σ) {i : ℕ} : σ i < n ↔ i < n := by
  by_cases hi : i < n
  · exact ⟨fun _ => hi, fun _ => h.lt i hi⟩
  · rw [h.rest i (by omega)]

theorem _root_.SD.Spec.Reorders.onto (h : Reorders n σ) {j : ℕ} (hj : j < n) : ∃ i < n, σ i = j := by
  have e : (range n).image σ = range n := by
    refine eq_of_subset_of_card_le ?_ ?_
    · intro x hx
      obtain ⟨i, hi, rfl⟩ := mem_image.mp hx
      exact mem_range.mpr (h.lt i (mem_range.mp hi))
    · rw [card_image_of_injOn]
      intro i hi j hj e
      exact h.inj i (by simpa using hi) j (by simpa using hj) e
  have : j ∈ (range n).image σ := by rw [e]; exact mem_range.mpr hj
  obtain ⟨i, hi, rfl⟩ := mem_image.mp this
  exact ⟨i, mem_range.mp hi, rfl⟩

theorem _root_.SD.Spec.Reorders.zero (h : Reorders 0 σ) : σ = fun i => i := funext fun i => h.rest i (by omega)

@[simp] theorem reorder_length (l : List α) : (reorder σ l).length = l.length := by simp [reorder]

theorem reorder_get? (h : Reorders n σ) {l : List α} (hl : n ≤ l.length) (i : ℕ) : (reorder σ l)[i]? = l[σ i]? := by
  by_cases hi : i < l.length
  · have hs : σ i < l.length := by
      by_cases hn : i < n
      · have := h.lt i hn; omega
      · rw [h.rest i (by omega)]; exact hi
    simp [reorder, hi, hs]
  · rw [h.rest i (by omega), List.getElem?_eq_none (by simpa using hi), List.getElem?_eq_none (by omega)]

theorem reorder_getD (h : Reorders n σ) {l : List α} (hl : n ≤ l.length) (i : ℕ) (d : α) :
    (reorder σ l).getD i d = l.getD (σ i) d := by
  rw [List.getD_eq_getElem?_getD, List.getD_eq_getElem?_getD, reorder_get? h hl]

theorem reorder_map (f : α → β) (l : List α) : reorder σ (l.map f) = (reorder σ l).map f := by
  apply List.ext_getElem?
  intro i
  by_cases hi : i < l.length
  · by_cases hs : σ i < l.length <;> simp [reorder, hi, hs]
  · rw [List.getElem?_eq_none (by simpa using hi), List.getElem?_eq_none (by simpa using hi)]

theorem reorder_id (l : List α) : reorder (fun i => i) l = l := by
  apply List.ext_getElem?
  intro i
  rw [reorder_get? (n := 0) ⟨fun _ h => absurd h (by omega), fun _ h => absurd h (by omega), fun _ _ => rfl⟩ (by omega)]

theorem mem_reorder {l : List α} {x : α} (h : x ∈ reorder σ l) : x ∈ l := by
  obtain ⟨i, hi⟩ := List.getElem?_of_mem h
  have hl : i < l.length := by
    have := (List.getElem?_eq_some_iff.mp hi).1
    simpa using this
  by_cases hs : σ i < l.length
  · simp [reorder, hl, hs] at hi
    rw [← hi]; exact List.getElem_mem _
  · simp [reorder, hl, hs] at hi
    rw [← hi]; exact List.getElem_mem _

/-- Entries `k`, …, of a list that are numbers. -/
theorem reorder_blank (h : Reorders n σ) {l : List OVec3} {r : List Vec3} (hl : l.length = n) (hr : r.length = n) {k : ℕ} (hk : k ≤ n)
    (hb : ∀ i, l.getD (σ i) blank = blank ↔ l.getD i blank = blank)
    (e : l = (r.take k).map num3 ++ List.replicate (n - k) blank) :
    (∀ i, σ i < k ↔ i < k) ∧
    reorder σ l = ((reorder σ r).take k).map num3 ++ List.replicate (n - k) blank := by
  have hlk : ((r.take k).map num3).length = k := by simp [hr, hk]
  have key : ∀ i, l.getD i blank = blank ↔ k ≤ i := by
    intro i
    rw [e]
    constructor
    · intro h
      by_contra hi
      have hi : i < k := by omega
      rw [List.getD_append _ _ _ _ (by omega), List.getD_eq_getElem _ _ (by omega)] at h
      exact given_not_blank (given_map _ _ (List.getElem_mem _)) h
    · intro hi
      rw [List.getD_append_right _ _ _ _ (by omega)]
      by_cases hj : i - ((r.take k).map num3).length < n - k
      · rw [List.getD_eq_getElem _ _ (by simpa using hj)]
        simp
      · rw [List.getD_eq_default]
        simpa using hj
  have hs : ∀ i, σ i < k ↔ i < k := by
    intro i
    have := hb i
    rw [key, key] at this
    omega
  refine ⟨hs, ?_⟩
  apply List.ext_getElem?
  intro i
  rw [reorder_get? h hl.ge]
  by_cases hi : i < k
  · rw [List.getElem?_append_left (by simp [hr]; omega), List.getElem?_map, List.getElem?_take, if_pos hi,
      reorder_get? h hr.ge, e, List.getElem?_append_left (by rw [hlk]; exact (hs i).mpr hi), List.getElem?_map,
      List.getElem?_take, if_pos ((hs i).mpr hi)]
  · have h2 : k ≤ σ i := by have := hs i; omega
    rw [List.getElem?_append_right (by simp [hr]; omega), e, List.getElem?_append_right (by rw [hlk]; exact h2)]
    have e1 : (((reorder σ r).take k).map num3).length = k := by simp [hr, hk]
    rw [hlk, e1, List.getElem?_replicate, List.getElem?_replicate]
    have := h.lt_iff (i := i)
    congr 1
    simp only [eq_iff_iff]
    omega

theorem reorder_drop (h : Reorders n σ) {l : List OVec3} {r : List Vec3} (hl : l.length = n) (hr : r.length = n) {k : ℕ}
    (hs : ∀ i, σ i < k ↔ i < k) (e : l.drop k = (r.drop k).map num3) :
    (reorder σ l).drop k = ((reorder σ r).drop k).map num3 := by
  apply List.ext_getElem?
  intro i
  have g : ∀ j, k ≤ j → l[j]? = (r[j]?).map num3 := by
    intro j hj
    have := congrArg (fun l => l[j - k]?) e
    simp only [List.getElem?_drop, List.getElem?_map] at this
    rwa [show k + (j - k) = j by omega] at this
  rw [List.getElem?_drop, reorder_get? h hl.ge, List.getElem?_map, List.getElem?_drop, reorder_get? h hr.ge]
  exact g _ (by have := hs (k + i); omega)

theorem reorder_take (h : Reorders n σ) {l : List OVec3} {r : List Vec3} (hl : l.length = n) (hr : r.length = n) {k : ℕ}
    (hs : ∀ i, σ i < k ↔ i < k) (e : l.take k = (r.take k).map num3) :
    (reorder σ l).take k = ((reorder σ r).take k).map num3 := by
  apply List.ext_getElem?
  intro i
  have g : ∀ j, j < k → l[j]? = (r[j]?).map num3 := by
    intro j hj
    have := congrArg (fun l => l[j]?) e
    simp only [List.getElem?_take, List.getElem?_map, if_pos hj] at this
    exact this
  rw [List.getElem?_take, List.getElem?_map, List.getElem?_take]
  by_cases hi : i < k
  · rw [if_pos hi, if_pos hi, reorder_get? h hl.ge, reorder_get? h hr.ge]
    exact g _ ((hs i).mpr hi)
  · rw [if_neg hi, if_neg hi]; rfl

end

/-! ## Reordered problems -/

section
variable {Ns Nd : ℕ} {σ τ : ℕ → ℕ} (hσ : Reorders Ns σ) (hτ : Reorders Nd τ)

theorem sized_reorder {x : Inputs} (h : Sized Ns Nd x) : Sized Ns Nd (reorderInputs σ τ x) := by
  refine ⟨?_, ?_, ?_, ?_, ?_, ?_, ?_, ?_⟩ <;>
    simp [reorderInputs, h.Fa, h.Ta, h.Sa, h.Fb, h.DFb, h.Ua, h.Ub, h.HalfDUb]

include hσ hτ

theorem echo_reorder {form : InputForm} {R : NDMat} {x : Inputs} {a : Outputs} (hx : Sized Ns Nd x)
    (hf : form ≠ .fts → form ≠ .fte → KeepsFixed σ τ x) (s : Solves Ns Nd R a) (e : Echo form Ns Nd x a) :
    Echo form Ns Nd (reorderInputs σ τ x) (reorderOutputs σ τ a) := by
  have m3 : ∀ {ρ : ℕ → ℕ} {l : List OVec3} {r : List Vec3}, l = r.map num3 → reorder ρ l = (reorder ρ r).map num3 := by
    intro ρ l r h; rw [h, reorder_map]
  have m33 : ∀ {ρ : ℕ → ℕ} {l : List OMat3} {r : List Mat3}, l = r.map num33 → reorder ρ l = (reorder ρ r).map num33 := by
    intro ρ l r h; rw [h, reorder_map]
  cases form with
  | fts =>
    obtain ⟨x1, x2, x3, x4, x5⟩ := e
    exact ⟨m3 x1, m3 x2, m33 x3, m3 x4, m3 x5⟩
  | fte =>
    obtain ⟨x1, x2, x3, x4, x5⟩ := e
    exact ⟨m3 x1, m3 x2, m33 x3, m3 x4, m3 x5⟩
  | ufte =>
    obtain ⟨k, hk, x0, x1, x2, x3, x4, x5⟩ := e
    obtain ⟨hs, y0⟩ := reorder_blank hσ hx.Ua s.Ua hk (hf (by simp) (by simp)).1 x0
    exact ⟨k, hk, y0, reorder_drop hσ hx.Fa s.Fa hs x1, m3 x2, m33 x3, m3 x4, m3 x5⟩
  | ufteu =>
    obtain ⟨k, hk, kd, hkd, x0, x1, x2, x3, x4, x5, x6, x7⟩ := e
    obtain ⟨hs, y0⟩ := reorder_blank hσ hx.Ua s.Ua hk (hf (by simp) (by simp)).1 x0
    obtain ⟨ht, y4⟩ := reorder_blank hτ hx.Ub s.Ub hkd (hf (by simp) (by simp)).2 x4
    exact ⟨k, hk, kd, hkd, y0, reorder_drop hσ hx.Fa s.Fa hs x1, m3 x2, m33 x3, y4,
      reorder_take hτ hx.HalfDUb s.HalfDUb ht x5, reorder_drop hτ hx.Fb s.Fb ht x6, reorder_drop hτ hx.DFb s.DFb ht x7⟩
  | duf =>
    obtain ⟨kd, hkd, x4, x5, x6, x7⟩ := e
    obtain ⟨ht, y4⟩ := reorder_blank hτ hx.Ub s.Ub hkd (hf (by simp) (by simp)).2 x4
    exact ⟨kd, hkd, y4, reorder_take hτ hx.HalfDUb s.HalfDUb ht x5, reorder_drop hτ hx.Fb s.Fb ht x6,
      reorder_drop hτ hx.DFb s.DFb ht x7⟩

theorem pack_reorder {u o ub hd : List Vec3} {e : List Mat3}
    (hu : u.length = Ns) (ho : o.length = Ns) (he : Ns ≤ e.length) (hub : ub.length = Nd) (hhd : hd.length = Nd) :
    GrandRenumbered Ns Nd σ τ (pack Ns Nd u o e ub hd)
      (pack Ns Nd (reorder σ u) (reorder σ o) (reorder σ e) (reorder τ ub) (reorder τ hd)) := by
  intro x c hx
  cases c with
  | f i =>
    have hx : x < Ns + 2 * Nd := hx
    by_cases h1 : x < Ns
    · have h1' := hσ.lt x h1
      have eb : beadMap Ns Nd σ τ x = σ x := by simp [beadMap, h1]
      have r : ∀ y < Ns, row Ns y (.f i) = 3 * y + i := fun y hy => by simp only [row]; rw [if_pos hy]
      rw [eb, r x h1, r _ h1', pack_u _ _ _ _ _ h1, pack_u _ _ _ _ _ h1', reorder_getD hσ hu.ge]
    by_cases h2 : x < Ns + Nd
    · have hb : x - Ns < Nd := by omega
      have hb' := hτ.lt _ hb
      have eb : beadMap Ns Nd σ τ x = Ns + τ (x - Ns) := by simp [beadMap, h1, h2]
      have r : ∀ y < Nd, row Ns (Ns + y) (.f i) = 11 * Ns + (3 * y + i) := fun y hy => by
        simp only [row]; rw [if_neg (by omega)]; omega
      rw [eb, r _ hb', show x = Ns + (x - Ns) by omega, r _ hb, pack_ub _ _ _ _ _ hb,
        show Ns + (x - Ns) - Ns = x - Ns by omega, pack_ub _ _ _ _ _ hb', reorder_getD hτ hub.ge]
    · have hb : x - (Ns + Nd) < Nd := by omega
      have hb' := hτ.lt _ hb
      have eb : beadMap Ns Nd σ τ x = Ns + Nd + τ (x - (Ns + Nd)) := by simp [beadMap, h1, h2]
      have r : ∀ y < Nd, row Ns (Ns + Nd + y) (.f i) = 11 * Ns + 3 * Nd + (3 * y + i) := fun y hy => by
        simp only [row]; rw [if_neg (by omega)]; omega
      rw [eb, r _ hb', show x = Ns + Nd + (x - (Ns + Nd)) by omega, r _ hb, pack_hd _ _ _ _ _ hb,
        show Ns + Nd + (x - (Ns + Nd)) - (Ns + Nd) = x - (Ns + Nd) by omega, pack_hd _ _ _ _ _ hb', reorder_getD hτ hhd.ge]
  | t i =>
    have hx : x < Ns := hx
    have hx' := hσ.lt x hx
    have eb : beadMap Ns Nd σ τ x = σ x := by simp [beadMap, hx]
    have r : ∀ y, row Ns y (.t i) = 3 * Ns + (3 * y + i) := fun y => by simp only [row]; omega
    rw [eb, r, r, pack_o _ _ _ _ _ hx, pack_o _ _ _ _ _ hx', reorder_getD hσ ho.ge]
  | s p =>
    have hx : x < Ns := hx
    have hx' := hσ.lt x hx
    have eb : beadMap Ns Nd σ τ x = σ x := by simp [beadMap, hx]
    have r : ∀ y, row Ns y (.s p) = 6 * Ns + (5 * y + p) := fun y => by simp only [row]; omega
    rw [eb, r, r, pack_e _ _ _ _ _ hx, pack_e _ _ _ _ _ hx', reorder_getD hσ he]

theorem renum_map : Renum Ns Nd (beadMap Ns Nd σ τ) := by
  exact renum_beadMap (P := ⟨Ns, Nd, fun _ => 1, fun _ _ => 0, fun _ => 1, fun _ _ => 0, fun _ _ => 0⟩)
    hσ.lt hτ.lt hσ.inj hτ.inj

theorem undo_renum : Undo Ns Nd oneK (beadMap Ns Nd σ τ) :=
  undo_diagK (renum_map hσ hτ) (w' := fun _ => 1) fun _ => one_mul 1

theorem power_reorder {f f' v v' : ℕ → ℝ} (hf : GrandRenumbered Ns Nd σ τ f f') (hv : GrandRenumbered Ns Nd σ τ v v') :
    ∑ i ∈ range (11 * Ns + 6 * Nd), f' i * v' i = ∑ i ∈ range (11 * Ns + 6 * Nd), f i * v i := by
  have hr := renum_map hσ hτ
  have re : ∀ (n : ℕ) (g : ℕ → ℝ), (∀ u < n, beadMap Ns Nd σ τ u < n) → n ≤ Ns + 2 * Nd →
      ∑ u ∈ range n, g (beadMap Ns Nd σ τ u) = ∑ u ∈ range n, g u := by
    intro n g h hn
    have inj : Set.InjOn (beadMap Ns Nd σ τ) (range n : Finset ℕ) := by
      intro i hi j hj e
      have hi : i < n := by simpa using hi
      have hj : j < n := by simpa using hj
      exact hr.inj i (by omega) j (by omega) e
    rw [← sum_image (g := beadMap Ns Nd σ τ) (f := g) inj]
    refine sum_congr (eq_of_subset_of_card_le ?_ ?_) fun _ _ => rfl
    · intro x hx
      obtain ⟨i, hi, rfl⟩ := mem_image.mp hx
      exact mem_range.mpr (h i (mem_range.mp hi))
    · rw [card_image_of_injOn inj]
  rw [sum_rows, sum_rows]
  congr 1
  · rw [← re (Ns + 2 * Nd) (fun u => ∑ k : Fin 3, f (row Ns u (.f k)) * v (row Ns u (.f k))) (fun u hu => hr.lt hu) le_rfl]
    refine sum_congr rfl fun u hu => sum_congr rfl fun k _ => ?_
    have hu := mem_range.mp hu
    rw [hf u (.f k) hu, hv u (.f k) hu]
  · rw [← re Ns (fun u => ∑ k : Fin 3, f (row Ns u (.t k)) * v (row Ns u (.t k))
      + ∑ p : Fin 5, f (row Ns u (.s p)) * v (row Ns u (.s p))) (fun u hu => hr.sphere u hu) (by omega)]
    refine sum_congr rfl fun u hu => ?_
    have hu := mem_range.mp hu
    congr 1
    · exact sum_congr rfl fun k _ => by rw [hf u (.t k) hu, hv u (.t k) hu]
    · exact sum_congr rfl fun k _ => by rw [hf u (.s k) hu, hv u (.s k) hu]

theorem posDef_reorder {M M' : ℕ → ℕ → ℝ}
    (hM : ∀ v v', GrandRenumbered Ns Nd σ τ v v' →
      GrandRenumbered Ns Nd σ τ (mulVec (11 * Ns + 6 * Nd) M v) (mulVec (11 * Ns + 6 * Nd) M' v'))
    (h : PosDef M (11 * Ns + 6 * Nd)) : PosDef M' (11 * Ns + 6 * Nd) := by
  intro w' hw'
  obtain ⟨w, hw⟩ := (undo_renum hσ hτ).onto w'
  have hw := acts_renum.mp hw
  rw [form_comm, power_reorder hσ hτ (hM w w' hw) hw, ← form_comm]
  refine h w ?_
  by_contra h0
  push Not at h0
  obtain ⟨i, hi, hne⟩ := hw'
  obtain ⟨u, c, hc, rfl⟩ := row_surj hi
  apply hne
  rw [hw u c hc]
  exact h0 _ (row_lt ((renum_map hσ hτ).hasRow hc))

theorem symm_reorder {M M' : ℕ → ℕ → ℝ}
    (hM : ∀ v v', GrandRenumbered Ns Nd σ τ v v' →
      GrandRenumbered Ns Nd σ τ (mulVec (11 * Ns + 6 * Nd) M v) (mulVec (11 * Ns + 6 * Nd) M' v'))
    (h : Symm M (11 * Ns + 6 * Nd)) : Symm M' (11 * Ns + 6 * Nd) := by
  intro i hi j hj
  have key : ∀ a < 11 * Ns + 6 * Nd, ∀ b < 11 * Ns + 6 * Nd, M' a b
      = ∑ i ∈ range (11 * Ns + 6 * Nd), mulVec (11 * Ns + 6 * Nd) M' (fun k => if k = b then 1 else 0) i
        * (fun k => if k = a then (1 : ℝ) else 0) i := by
    intro a ha b hb
    have e : ∀ i, mulVec (11 * Ns + 6 * Nd) M' (fun k => if k = b then 1 else 0) i = M' i b := by
      intro i
      simp [mulVec, mem_range.mpr hb]
    simp only [e]
    simp [mem_range.mpr ha]
  obtain ⟨v, hv⟩ := (undo_renum hσ hτ).onto fun k => if k = j then 1 else 0
  obtain ⟨w, hw⟩ := (undo_renum hσ hτ).onto fun k => if k = i then 1 else 0
  have hv := acts_renum.mp hv
  have hw := acts_renum.mp hw
  rw [key i hi j hj, key j hj i hi, power_reorder hσ hτ (hM v _ hv) hw, power_reorder hσ hτ (hM w _ hw) hv, ← form_comm,
    ← form_comm, sum_comm]
  refine sum_congr rfl fun a ha => sum_congr rfl fun b hb => ?_
  rw [h b (mem_range.mp hb) a (mem_range.mp ha)]
  ring

theorem solves_reorder {R R' : NDMat} {p : Outputs} (hs : Solves Ns Nd R p)
    (hR : ∀ v v', GrandRenumbered Ns Nd σ τ v v' →
      GrandRenumbered Ns Nd σ τ (mulVec (11 * Ns + 6 * Nd) R.get v) (mulVec (11 * Ns + 6 * Nd) R'.get v')) :
    Solves Ns Nd R' (reorderOutputs σ τ p) where
  rel := by
    intro i hi
    have h1 := hR _ _ (pack_reorder hσ hτ hs.Ua hs.Oa hs.Ea hs.Ub hs.HalfDUb)
    have h2 := pack_reorder hσ hτ hs.Fa hs.Ta hs.Sa.ge hs.Fb hs.DFb
    have e : ∀ i < 11 * Ns + 6 * Nd, mulVec (11 * Ns + 6 * Nd) R.get (pack Ns Nd p.Ua p.Oa p.Ea p.Ub p.HalfDUb) i
        = pack Ns Nd p.Fa p.Ta p.Sa p.Fb p.DFb i := fun i hi => hs.rel i hi
    obtain ⟨u, c, hu, rfl⟩ := row_surj hi
    show _ = pack Ns Nd (reorder σ p.Fa) (reorder σ p.Ta) (reorder σ p.Sa) (reorder τ p.Fb) (reorder τ p.DFb) _
    rw [h2 u c hu, ← e _ (row_lt ((renum_map hσ hτ).hasRow hu)), ← h1 u c hu]
    rfl
  Fa := by simp [reorderOutputs, hs.Fa]
  Ta := by simp [reorderOutputs, hs.Ta]
  Sa := by simp [reorderOutputs, hs.Sa]
  Fb := by simp [reorderOutputs, hs.Fb]
  DFb := by simp [reorderOutputs, hs.DFb]
  Ua := by simp [reorderOutputs, hs.Ua]
  Oa := by simp [reorderOutputs, hs.Oa]
  Ea := by simp [reorderOutputs, hs.Ea]
  Ub := by simp [reorderOutputs, hs.Ub]
  HalfDUb := by simp [reorderOutputs, hs.HalfDUb]

/-- Solving for the reordered particles. -/
theorem solve_reorder {form : InputForm} {R R' : NDMat} {x : Inputs} {p : Outputs}
    (hf : formAllowed form Ns) (hx : Sized Ns Nd x) (hr : R.rows = 11 * Ns + 6 * Nd)
    (hr' : R'.rows = 11 * Ns + 6 * Nd) (hc' : R'.cols = 11 * Ns + 6 * Nd)
    (hS : Symm R.get (11 * Ns + 6 * Nd)) (hP : PosDef R.get (11 * Ns + 6 * Nd)) (tx : Traceless x)
    (hk : form ≠ .fts → form ≠ .fte → KeepsFixed σ τ x)
    (hR : ∀ v v', GrandRenumbered Ns Nd σ τ v v' →
      GrandRenumbered Ns Nd σ τ (mulVec (11 * Ns + 6 * Nd) R.get v) (mulVec (11 * Ns + 6 * Nd) R'.get v'))
    (h : solveForm form false Ns Nd R x = some p) :
    ∃ q, solveForm form false Ns Nd R' (reorderInputs σ τ x) = some q ∧ SameMotion Ns (reorderOutputs σ τ p) q := by
  obtain ⟨s, e⟩ := solve_echo hf hx hr hS h
  have t := out_traceless hf hx hr hS tx h
  refine C09_forms_agree hf (sized_reorder hx) hr' hc' (symm_reorder hσ hτ hR hS) (posDef_reorder hσ hτ hR hP)
    (solves_reorder hσ hτ s hR) (fun m hm => t.1 m (mem_reorder hm)) ?_ (echo_reorder hσ hτ hx hk s e) ?_
  · intro m hm
    obtain ⟨i, hi, rfl⟩ := List.mem_iff_getElem.mp hm
    have hl : i < Ns := by simp at hi; omega
    have hE := s.Ea
    have h1 : ((reorderOutputs σ τ p).Ea.take Ns)[i]? = (p.Ea.take Ns)[σ i]? := by
      rw [List.getElem?_take, List.getElem?_take, if_pos hl, if_pos (hσ.lt i hl)]
      exact reorder_get? hσ hE i
    rw [List.getElem?_eq_getElem hi] at h1
    exact t.2 _ (List.mem_of_getElem? h1.symm)
  · intro h0 m hm
    have hm := mem_reorder hm
    have c := C10_placeholders hx h
    rcases hf.1 h0 with rfl | rfl
    · exact c.2.2.2.2.2 h0 m hm
    · obtain ⟨_, _, _, _, _, _, _, g⟩ := c
      exact g m hm

end

end SD.Reorder
