import Verif.Lemmas.Positive

/-!
# Changing the components of grand vectors

A rotation, a change of units or a renumbering acts on a grand vector bead by bead: `Acts`. This file shows
how such actions pass through matrix products, inverses, and the change to dumbbell coordinates.
-/

set_option autoImplicit false

namespace SD.Cov

open Spec

/-- Combine components of the same kind with the coefficients `K`. -/
noncomputable def mix (K : Comp → Comp → ℝ) (c : Comp) (F : Comp → ℝ) : ℝ :=
  match c with
  | .f i => ∑ j, K (.f i) (.f j) * F (.f j)
  | .t i => ∑ j, K (.t i) (.t j) * F (.t j)
  | .s p => ∑ q, K (.s p) (.s q) * F (.s q)

theorem mix_congr {K : Comp → Comp → ℝ} {c : Comp} {F G : Comp → ℝ}
    (h : match c with
      | .f _ => ∀ j, F (.f j) = G (.f j)
      | .t _ => ∀ j, F (.t j) = G (.t j)
      | .s _ => ∀ q, F (.s q) = G (.s q)) : mix K c F = mix K c G := by
  cases c <;> simp only [mix] <;> simp only at h <;> simp only [h]

theorem mix_sum (K : Comp → Comp → ℝ) (c : Comp) {ι : Type} (s : Finset ι) (F : ι → Comp → ℝ) :
    mix K c (fun d => ∑ i ∈ s, F i d) = ∑ i ∈ s, mix K c (F i) := by
  cases c <;> simp only [mix, Finset.mul_sum] <;> exact Finset.sum_comm

theorem mix_add (K : Comp → Comp → ℝ) (c : Comp) (F G : Comp → ℝ) :
    mix K c (fun d => F d + G d) = mix K c F + mix K c G := by
  cases c <;> simp only [mix, mul_add, Finset.sum_add_distrib]

theorem mix_mul (K : Comp → Comp → ℝ) (c : Comp) (F : Comp → ℝ) (z : ℝ) :
    mix K c (fun d => F d * z) = mix K c F * z := by
  cases c <;> simp only [mix, Finset.sum_mul, mul_assoc]

theorem mix_mul' (K : Comp → Comp → ℝ) (c : Comp) (F : Comp → ℝ) (z : ℝ) :
    mix K c (fun d => z * F d) = z * mix K c F := by
  cases c <;> simp only [mix, Finset.mul_sum] <;> exact Finset.sum_congr rfl fun _ _ => by ring

theorem mix_zero (K : Comp → Comp → ℝ) (c : Comp) : mix K c (fun _ => 0) = 0 := by
  cases c <;> simp [mix]

/-- The coefficients `K` and `L` keep the scalar product. -/
structure Dual (K L : Comp → Comp → ℝ) : Prop where
  f : ∀ F G : Comp → ℝ, ∑ i, mix K (.f i) F * mix L (.f i) G = ∑ i, F (.f i) * G (.f i)
  t : ∀ F G : Comp → ℝ, ∑ i, mix K (.t i) F * mix L (.t i) G = ∑ i, F (.t i) * G (.t i)
  s : ∀ F G : Comp → ℝ, ∑ p, mix K (.s p) F * mix L (.s p) G = ∑ p, F (.s p) * G (.s p)

/-- A renumbering of beads that comes from renumberings of spheres and dumbbells. -/
structure Renum (Ns Nd : ℕ) (β : ℕ → ℕ) : Prop where
  sphere : ∀ u < Ns, β u < Ns
  dumb : ∀ d < Nd, ∃ e < Nd, β (Ns + d) = Ns + e ∧ β (Ns + Nd + d) = Ns + Nd + e
  inj : ∀ u < Ns + 2 * Nd, ∀ v < Ns + 2 * Nd, β u = β v → u = v

theorem Renum.id (Ns Nd : ℕ) : Renum Ns Nd fun u => u :=
  ⟨fun _ h => h, fun d h => ⟨d, h, rfl, rfl⟩, fun _ _ _ _ h => h⟩

variable {Ns Nd : ℕ} {β : ℕ → ℕ}

theorem Renum.lt (h : Renum Ns Nd β) {u : ℕ} (hu : u < Ns + 2 * Nd) : β u < Ns + 2 * Nd := by
  by_cases h1 : u < Ns
  · have := h.sphere u h1; omega
  · by_cases h2 : u < Ns + Nd
    · obtain ⟨e, he, h3, -⟩ := h.dumb (u - Ns) (by omega)
      rw [show Ns + (u - Ns) = u by omega] at h3
      omega
    · obtain ⟨e, he, -, h3⟩ := h.dumb (u - Ns - Nd) (by omega)
      rw [show Ns + Nd + (u - Ns - Nd) = u by omega] at h3
      omega

theorem Renum.hasRow (h : Renum Ns Nd β) {u : ℕ} {c : Comp} (hu : HasRow Ns Nd u c) : HasRow Ns Nd (β u) c := by
  cases c with
  | f i => exact h.lt hu
  | t i => exact h.sphere u hu
  | s p => exact h.sphere u hu

theorem Renum.sum (h : Renum Ns Nd β) (F : ℕ → ℝ) :
    ∑ u ∈ Finset.range (Ns + 2 * Nd), F (β u) = ∑ u ∈ Finset.range (Ns + 2 * Nd), F u := by
  have maps : Set.MapsTo β (Finset.range (Ns + 2 * Nd)) (Finset.range (Ns + 2 * Nd)) := fun u hu =>
    Finset.mem_coe.mpr (Finset.mem_range.mpr (h.lt (Finset.mem_range.mp hu)))
  have inj : Set.InjOn β (Finset.range (Ns + 2 * Nd)) := fun u hu v hv e =>
    h.inj u (Finset.mem_range.mp hu) v (Finset.mem_range.mp hv) e
  exact Finset.sum_nbij β maps inj (Finset.surjOn_of_injOn_of_card_le _ maps inj le_rfl) fun _ _ => rfl

theorem Renum.sum_spheres (h : Renum Ns Nd β) (F : ℕ → ℝ) :
    ∑ u ∈ Finset.range Ns, F (β u) = ∑ u ∈ Finset.range Ns, F u := by
  have maps : Set.MapsTo β (Finset.range Ns) (Finset.range Ns) := fun u hu =>
    Finset.mem_coe.mpr (Finset.mem_range.mpr (h.sphere u (Finset.mem_range.mp hu)))
  have inj : Set.InjOn β (Finset.range Ns) := fun u hu v hv e => by
    have hu := Finset.mem_range.mp hu
    have hv := Finset.mem_range.mp hv
    exact h.inj u (by omega) v (by omega) e
  exact Finset.sum_nbij β maps inj (Finset.surjOn_of_injOn_of_card_le _ maps inj le_rfl) fun _ _ => rfl

/-- `v'` is `v` with beads renumbered by `β` and components combined with `K`. -/
def Acts (Ns Nd : ℕ) (K : Comp → Comp → ℝ) (β : ℕ → ℕ) (v v' : ℕ → ℝ) : Prop :=
  ∀ u c, HasRow Ns Nd u c → v' (row Ns u c) = mix K c fun d => v (row Ns (β u) d)

variable {K Kd Kl Km : Comp → Comp → ℝ}

theorem acts_total (K : Comp → Comp → ℝ) (β : ℕ → ℕ) (v : ℕ → ℝ) : ∃ v', Acts Ns Nd K β v v' := by
  classical
  let v' : ℕ → ℝ := fun i => if h : ∃ u c, HasRow Ns Nd u c ∧ row Ns u c = i then
      mix K h.choose_spec.choose fun d => v (row Ns (β h.choose) d) else 0
  refine ⟨v', fun u c hu => ?_⟩
  have h : ∃ u' c', HasRow Ns Nd u' c' ∧ row Ns u' c' = row Ns u c := ⟨u, c, hu, rfl⟩
  simp only [v']
  rw [dif_pos h]
  obtain ⟨e1, e2⟩ := row_inj h.choose_spec.choose_spec.1 hu h.choose_spec.choose_spec.2
  rw [e2, e1]

theorem acts_unique {v v' v'' : ℕ → ℝ} (h' : Acts Ns Nd K β v v') (h'' : Acts Ns Nd K β v v'') {i : ℕ}
    (hi : i < 11 * Ns + 6 * Nd) : v' i = v'' i := by
  obtain ⟨u, c, hu, rfl⟩ := row_surj hi
  rw [h' u c hu, h'' u c hu]

theorem mix_rows (hβ : Renum Ns Nd β) {v w : ℕ → ℝ} (hv : ∀ i < 11 * Ns + 6 * Nd, v i = w i) {u : ℕ} {c : Comp}
    (hu : HasRow Ns Nd u c) : (mix K c fun d => v (row Ns (β u) d)) = mix K c fun d => w (row Ns (β u) d) := by
  apply mix_congr
  cases c with
  | f i => exact fun j => hv _ (row_lt (hβ.hasRow (c := .f j) hu))
  | t i => exact fun j => hv _ (row_lt (hβ.hasRow (c := .t j) hu))
  | s p => exact fun j => hv _ (row_lt (hβ.hasRow (c := .s j) hu))

theorem acts_congr (hβ : Renum Ns Nd β) {v w v' w' : ℕ → ℝ} (h : Acts Ns Nd K β v v')
    (hv : ∀ i < 11 * Ns + 6 * Nd, v i = w i) (hv' : ∀ i < 11 * Ns + 6 * Nd, v' i = w' i) :
    Acts Ns Nd K β w w' := by
  intro u c hu
  rw [← hv' _ (row_lt hu), h u c hu, mix_rows hβ hv hu]

theorem acts_add {v v' w w' : ℕ → ℝ} (h : Acts Ns Nd K β v v') (h' : Acts Ns Nd K β w w') :
    Acts Ns Nd K β (fun i => v i + w i) fun i => v' i + w' i := by
  intro u c hu
  simp only
  rw [h u c hu, h' u c hu, mix_add]

theorem acts_smul {v v' : ℕ → ℝ} (z : ℝ) (h : Acts Ns Nd K β v v') :
    Acts Ns Nd K β (fun i => z * v i) fun i => z * v' i := by
  intro u c hu
  simp only
  rw [h u c hu, mix_mul']

/-- A matrix whose entries are combined with `Km` and the dual of `Kl` turns what is combined with `Kl` into what is
combined with `Km`. -/
theorem acts_mul (hβ : Renum Ns Nd β) (hd : Dual Kd Kl) {M M' : ℕ → ℕ → ℝ}
    (hM : ∀ x c1 y c2, HasRow Ns Nd x c1 → HasRow Ns Nd y c2 → M' (row Ns x c1) (row Ns y c2)
      = mix Km c1 fun d1 => mix Kd c2 fun d2 => M (row Ns (β x) d1) (row Ns (β y) d2))
    {f f' : ℕ → ℝ} (hf : Acts Ns Nd Kl β f f') :
    Acts Ns Nd Km β (mulVec (11 * Ns + 6 * Nd) M f) (mulVec (11 * Ns + 6 * Nd) M' f') := by
  intro x c1 hx
  unfold mulVec
  rw [sum_rows]
  simp only [sum_rows Ns Nd fun i => M _ i * f i]
  rw [mix_add]
  simp only [mix_sum, mix_add]
  have e1 : ∀ u ∈ Finset.range (Ns + 2 * Nd), ∑ k : Fin 3, M' (row Ns x c1) (row Ns u (.f k)) * f' (row Ns u (.f k))
      = ∑ k : Fin 3, mix Km c1 fun d1 => M (row Ns (β x) d1) (row Ns (β u) (.f k)) * f (row Ns (β u) (.f k)) := by
    intro u hu
    have hu := Finset.mem_range.mp hu
    rw [← mix_sum]
    have e : ∀ d1, ∑ k, M (row Ns (β x) d1) (row Ns (β u) (.f k)) * f (row Ns (β u) (.f k)) = _ := fun d1 =>
      (hd.f (fun d => M (row Ns (β x) d1) (row Ns (β u) d)) fun d => f (row Ns (β u) d)).symm
    simp only [e]
    rw [mix_sum]
    refine Finset.sum_congr rfl fun k _ => ?_
    rw [mix_mul, hM x c1 u (.f k) hx hu, hf u (.f k) hu]
  have e2 : ∀ u ∈ Finset.range Ns, ∑ k : Fin 3, M' (row Ns x c1) (row Ns u (.t k)) * f' (row Ns u (.t k))
      = ∑ k : Fin 3, mix Km c1 fun d1 => M (row Ns (β x) d1) (row Ns (β u) (.t k)) * f (row Ns (β u) (.t k)) := by
    intro u hu
    have hu := Finset.mem_range.mp hu
    rw [← mix_sum]
    have e : ∀ d1, ∑ k, M (row Ns (β x) d1) (row Ns (β u) (.t k)) * f (row Ns (β u) (.t k)) = _ := fun d1 =>
      (hd.t (fun d => M (row Ns (β x) d1) (row Ns (β u) d)) fun d => f (row Ns (β u) d)).symm
    simp only [e]
    rw [mix_sum]
    refine Finset.sum_congr rfl fun k _ => ?_
    rw [mix_mul, hM x c1 u (.t k) hx hu, hf u (.t k) hu]
  have e3 : ∀ u ∈ Finset.range Ns, ∑ k : Fin 5, M' (row Ns x c1) (row Ns u (.s k)) * f' (row Ns u (.s k))
      = ∑ k : Fin 5, mix Km c1 fun d1 => M (row Ns (β x) d1) (row Ns (β u) (.s k)) * f (row Ns (β u) (.s k)) := by
    intro u hu
    have hu := Finset.mem_range.mp hu
    rw [← mix_sum]
    have e : ∀ d1, ∑ k, M (row Ns (β x) d1) (row Ns (β u) (.s k)) * f (row Ns (β u) (.s k)) = _ := fun d1 =>
      (hd.s (fun d => M (row Ns (β x) d1) (row Ns (β u) d)) fun d => f (row Ns (β u) d)).symm
    simp only [e]
    rw [mix_sum]
    refine Finset.sum_congr rfl fun k _ => ?_
    rw [mix_mul, hM x c1 u (.s k) hx hu, hf u (.s k) hu]
  have e4 : ∀ u ∈ Finset.range Ns, (∑ k : Fin 3, M' (row Ns x c1) (row Ns u (.t k)) * f' (row Ns u (.t k)))
        + ∑ k : Fin 5, M' (row Ns x c1) (row Ns u (.s k)) * f' (row Ns u (.s k))
      = (∑ k : Fin 3, mix Km c1 fun d1 => M (row Ns (β x) d1) (row Ns (β u) (.t k)) * f (row Ns (β u) (.t k)))
        + ∑ k : Fin 5, mix Km c1 fun d1 => M (row Ns (β x) d1) (row Ns (β u) (.s k)) * f (row Ns (β u) (.s k)) :=
    fun u hu => by rw [e2 u hu, e3 u hu]
  rw [Finset.sum_congr rfl e1, Finset.sum_congr rfl e4]
  congr 1
  · exact hβ.sum fun u => ∑ k : Fin 3, mix Km c1 fun d1 => M (row Ns (β x) d1) (row Ns u (.f k)) * f (row Ns u (.f k))
  · exact hβ.sum_spheres fun u =>
      (∑ k : Fin 3, mix Km c1 fun d1 => M (row Ns (β x) d1) (row Ns u (.t k)) * f (row Ns u (.t k)))
        + ∑ k : Fin 5, mix Km c1 fun d1 => M (row Ns (β x) d1) (row Ns u (.s k)) * f (row Ns u (.s k))

/-! ## Dumbbell coordinates -/

/-- Combinations of the two beads of each dumbbell. -/
noncomputable def pairUp (Ns Nd : ℕ) (a b c d : ℝ) (v : ℕ → ℝ) (i : ℕ) : ℝ :=
  if i < 11 * Ns then v i
  else if i < 11 * Ns + 3 * Nd then a * v i + b * v (i + 3 * Nd)
  else c * v i + d * v (i - 3 * Nd)

theorem pairUp_sphere (a b c d : ℝ) (v : ℕ → ℝ) {u : ℕ} (k : Comp) (hu : u < Ns) :
    pairUp Ns Nd a b c d v (row Ns u k) = v (row Ns u k) := by
  unfold pairUp
  rw [if_pos]
  cases k with
  | f i => have := i.isLt; simp only [row, if_pos hu]; omega
  | t i => have := i.isLt; simp only [row]; omega
  | s p => have := p.isLt; simp only [row]; omega

theorem pairUp_first (a b c d : ℝ) (v : ℕ → ℝ) {e : ℕ} (i : Fin 3) (he : e < Nd) :
    pairUp Ns Nd a b c d v (row Ns (Ns + e) (.f i))
      = a * v (row Ns (Ns + e) (.f i)) + b * v (row Ns (Ns + Nd + e) (.f i)) := by
  have := i.isLt
  have r1 : row Ns (Ns + e) (.f i) = 11 * Ns + 3 * e + i := by
    simp only [row, if_neg (show ¬ Ns + e < Ns by omega)]; congr 2; omega
  have r2 : row Ns (Ns + Nd + e) (.f i) = 11 * Ns + 3 * e + i + 3 * Nd := by
    simp only [row, if_neg (show ¬ Ns + Nd + e < Ns by omega)]; omega
  unfold pairUp
  rw [r1, r2, if_neg (by omega), if_pos (by omega)]

theorem pairUp_second (a b c d : ℝ) (v : ℕ → ℝ) {e : ℕ} (i : Fin 3) (he : e < Nd) :
    pairUp Ns Nd a b c d v (row Ns (Ns + Nd + e) (.f i))
      = c * v (row Ns (Ns + Nd + e) (.f i)) + d * v (row Ns (Ns + e) (.f i)) := by
  have := i.isLt
  have r1 : row Ns (Ns + e) (.f i) = 11 * Ns + 3 * e + i := by
    simp only [row, if_neg (show ¬ Ns + e < Ns by omega)]; congr 2; omega
  have r2 : row Ns (Ns + Nd + e) (.f i) = 11 * Ns + 3 * e + i + 3 * Nd := by
    simp only [row, if_neg (show ¬ Ns + Nd + e < Ns by omega)]; omega
  unfold pairUp
  rw [r1, r2, if_neg (by omega), if_neg (by omega), Nat.add_sub_cancel]

theorem acts_pairUp (hβ : Renum Ns Nd β) (a b c d : ℝ) {v v' : ℕ → ℝ} (h : Acts Ns Nd K β v v') :
    Acts Ns Nd K β (pairUp Ns Nd a b c d v) (pairUp Ns Nd a b c d v') := by
  intro u k hu
  by_cases hs : u < Ns
  · rw [pairUp_sphere _ _ _ _ _ _ hs, h u k hu]
    exact mix_congr (by cases k <;> exact fun j => (pairUp_sphere _ _ _ _ _ _ (hβ.sphere u hs)).symm)
  cases k with
  | t i => exact absurd hu hs
  | s p => exact absurd hu hs
  | f i =>
    have hu' : u < Ns + 2 * Nd := hu
    by_cases h2 : u < Ns + Nd
    · obtain ⟨e, he, rfl⟩ : ∃ e < Nd, u = Ns + e := ⟨u - Ns, by omega, by omega⟩
      obtain ⟨e', he', h3, h4⟩ := hβ.dumb e he
      rw [pairUp_first _ _ _ _ _ _ he, h _ _ (show HasRow Ns Nd (Ns + e) (.f i) from hu'),
        h _ _ (show HasRow Ns Nd (Ns + Nd + e) (.f i) from (show Ns + Nd + e < Ns + 2 * Nd by omega)), h3, h4,
        ← mix_mul', ← mix_mul', ← mix_add]
      exact mix_congr fun j => (pairUp_first _ _ _ _ _ _ he').symm
    · obtain ⟨e, he, rfl⟩ : ∃ e < Nd, u = Ns + Nd + e := ⟨u - Ns - Nd, by omega, by omega⟩
      obtain ⟨e', he', h3, h4⟩ := hβ.dumb e he
      rw [pairUp_second _ _ _ _ _ _ he, h _ _ (show HasRow Ns Nd (Ns + Nd + e) (.f i) from hu'),
        h _ _ (show HasRow Ns Nd (Ns + e) (.f i) from (show Ns + e < Ns + 2 * Nd by omega)), h3, h4,
        ← mix_mul', ← mix_mul', ← mix_add]
      exact mix_congr fun j => (pairUp_second _ _ _ _ _ _ he').symm

theorem toDumbForce_pairUp (v : ℕ → ℝ) : toDumbForce Ns Nd v = pairUp Ns Nd 1 1 1 (-1) v := by
  funext i; unfold toDumbForce pairUp; split_ifs <;> ring

theorem toDumbVel_pairUp (v : ℕ → ℝ) : toDumbVel Ns Nd v = pairUp Ns Nd (1 / 2) (1 / 2) (1 / 2) (-(1 / 2)) v := by
  funext i; unfold toDumbVel pairUp; split_ifs <;> ring

theorem dumb_back (v : ℕ → ℝ) {i : ℕ} (hi : i < 11 * Ns + 6 * Nd) :
    toDumbForce Ns Nd (pairUp Ns Nd (1 / 2) (-(1 / 2)) (1 / 2) (1 / 2) v) i = v i ∧
    toDumbVel Ns Nd (pairUp Ns Nd 1 (-1) 1 1 v) i = v i := by
  unfold toDumbForce toDumbVel pairUp
  by_cases h1 : i < 11 * Ns
  · simp [h1]
  by_cases h2 : i < 11 * Ns + 3 * Nd
  · have h3 : ¬ i + 3 * Nd < 11 * Ns := by omega
    have h4 : ¬ i + 3 * Nd < 11 * Ns + 3 * Nd := by omega
    simp only [if_neg h1, if_pos h2, if_neg h3, if_neg h4, Nat.add_sub_cancel]
    constructor <;> ring
  · have h3 : ¬ i - 3 * Nd < 11 * Ns := by omega
    have h4 : i - 3 * Nd < 11 * Ns + 3 * Nd := by omega
    have h5 : i - 3 * Nd + 3 * Nd = i := by omega
    simp only [if_neg h1, if_neg h2, if_neg h3, if_pos h4, h5]
    constructor <;> ring

/-- From bead coordinates to dumbbell coordinates, for mobility matrices. -/
theorem acts_dumb_mob (hβ : Renum Ns Nd β) {M M' B B' : ℕ → ℕ → ℝ}
    (h1 : ∀ φ i, i < 11 * Ns + 6 * Nd → mulVec (11 * Ns + 6 * Nd) M (toDumbForce Ns Nd φ) i
      = toDumbVel Ns Nd (mulVec (11 * Ns + 6 * Nd) B φ) i)
    (h2 : ∀ φ i, i < 11 * Ns + 6 * Nd → mulVec (11 * Ns + 6 * Nd) M' (toDumbForce Ns Nd φ) i
      = toDumbVel Ns Nd (mulVec (11 * Ns + 6 * Nd) B' φ) i)
    (hB : ∀ f f', Acts Ns Nd Kl β f f' →
      Acts Ns Nd Km β (mulVec (11 * Ns + 6 * Nd) B f) (mulVec (11 * Ns + 6 * Nd) B' f'))
    {f f' : ℕ → ℝ} (hf : Acts Ns Nd Kl β f f') :
    Acts Ns Nd Km β (mulVec (11 * Ns + 6 * Nd) M f) (mulVec (11 * Ns + 6 * Nd) M' f') := by
  have hφ := acts_pairUp hβ (1 / 2) (-(1 / 2)) (1 / 2) (1 / 2) hf
  have := acts_pairUp hβ (1 / 2) (1 / 2) (1 / 2) (-(1 / 2)) (hB _ _ hφ)
  rw [← toDumbVel_pairUp, ← toDumbVel_pairUp] at this
  refine acts_congr hβ this (fun i hi => ?_) fun i hi => ?_
  · rw [← h1 _ i hi]
    exact mulVec_congr (fun k hk => (dumb_back f hk).1) i
  · rw [← h2 _ i hi]
    exact mulVec_congr (fun k hk => (dumb_back f' hk).1) i

/-- From bead coordinates to dumbbell coordinates, for resistance matrices. -/
theorem acts_dumb_res (hβ : Renum Ns Nd β) {R R' B B' : ℕ → ℕ → ℝ}
    (h1 : ∀ φ i, i < 11 * Ns + 6 * Nd → mulVec (11 * Ns + 6 * Nd) R (toDumbVel Ns Nd φ) i
      = toDumbForce Ns Nd (mulVec (11 * Ns + 6 * Nd) B φ) i)
    (h2 : ∀ φ i, i < 11 * Ns + 6 * Nd → mulVec (11 * Ns + 6 * Nd) R' (toDumbVel Ns Nd φ) i
      = toDumbForce Ns Nd (mulVec (11 * Ns + 6 * Nd) B' φ) i)
    (hB : ∀ v v', Acts Ns Nd Km β v v' →
      Acts Ns Nd Kl β (mulVec (11 * Ns + 6 * Nd) B v) (mulVec (11 * Ns + 6 * Nd) B' v'))
    {v v' : ℕ → ℝ} (hv : Acts Ns Nd Km β v v') :
    Acts Ns Nd Kl β (mulVec (11 * Ns + 6 * Nd) R v) (mulVec (11 * Ns + 6 * Nd) R' v') := by
  have hφ := acts_pairUp hβ 1 (-1) 1 1 hv
  have := acts_pairUp hβ 1 1 1 (-1) (hB _ _ hφ)
  rw [← toDumbForce_pairUp, ← toDumbForce_pairUp] at this
  refine acts_congr hβ this (fun i hi => ?_) fun i hi => ?_
  · rw [← h1 _ i hi]
    exact mulVec_congr (fun k hk => (dumb_back v hk).2) i
  · rw [← h2 _ i hi]
    exact mulVec_congr (fun k hk => (dumb_back v' hk).2) i

/-! ## Inverses -/

/-- The inverse matrix acts the other way. -/
theorem acts_inv (hβ : Renum Ns Nd β) {M M' R R' : NDMat} (d : M.rows = 11 * Ns + 6 * Nd)
    (d' : M'.rows = 11 * Ns + 6 * Nd) (hR : M.inv = some R) (hR' : M'.inv = some R')
    (hM : ∀ f f', Acts Ns Nd Kl β f f' →
      Acts Ns Nd Km β (mulVec (11 * Ns + 6 * Nd) M.get f) (mulVec (11 * Ns + 6 * Nd) M'.get f'))
    {v v' : ℕ → ℝ} (hv : Acts Ns Nd Km β v v') :
    Acts Ns Nd Kl β (mulVec (11 * Ns + 6 * Nd) R.get v) (mulVec (11 * Ns + 6 * Nd) R'.get v') := by
  obtain ⟨f', hf'⟩ := acts_total (Ns := Ns) (Nd := Nd) Kl β (mulVec (11 * Ns + 6 * Nd) R.get v)
  have h1 := hM _ _ hf'
  have e1 : ∀ i < 11 * Ns + 6 * Nd,
      mulVec (11 * Ns + 6 * Nd) M.get (mulVec (11 * Ns + 6 * Nd) R.get v) i = v i := fun i hi => by
    have := (inv_mulVec hR v (i := i) (by rw [d]; exact hi)).2
    rwa [d] at this
  have h2 : Acts Ns Nd Km β v (mulVec (11 * Ns + 6 * Nd) M'.get f') := acts_congr hβ h1 e1 fun _ _ => rfl
  refine acts_congr hβ hf' (fun _ _ => rfl) fun i hi => ?_
  have e2 := (inv_mulVec hR' f' (i := i) (by rw [d']; exact hi)).1
  rw [d'] at e2
  rw [← e2]
  exact mulVec_congr (fun k hk => acts_unique h2 hv hk) i

/-- The action can be undone. -/
structure Undo (Ns Nd : ℕ) (K : Comp → Comp → ℝ) (β : ℕ → ℕ) : Prop where
  onto : ∀ v', ∃ v, Acts Ns Nd K β v v'
  zero : ∀ v, Acts Ns Nd K β v (fun _ => 0) → ∀ i < 11 * Ns + 6 * Nd, v i = 0

/-- An inverse exists after the change if it exists before. -/
theorem inv_exists (hβ : Renum Ns Nd β) {M M' R : NDMat} (d : M.rows = 11 * Ns + 6 * Nd ∧ M.cols = 11 * Ns + 6 * Nd)
    (d' : M'.rows = 11 * Ns + 6 * Nd ∧ M'.cols = 11 * Ns + 6 * Nd) (hR : M.inv = some R)
    (hl : Undo Ns Nd Kl β) (hm : Undo Ns Nd Km β)
    (hM : ∀ f f', Acts Ns Nd Kl β f f' →
      Acts Ns Nd Km β (mulVec (11 * Ns + 6 * Nd) M.get f) (mulVec (11 * Ns + 6 * Nd) M'.get f')) :
    ∃ R', M'.inv = some R' := by
  rw [inv_isSome (by rw [d'.1, d'.2])]
  have h0 := (inv_isSome (M := M) (by rw [d.1, d.2])).mp ⟨R, hR⟩
  rw [d.1] at h0
  rw [d'.1]
  intro f' hf'
  obtain ⟨f, hf⟩ := hl.onto f'
  have h1 := acts_congr hβ (hM f f' hf) (fun _ _ => rfl) (w' := fun _ => 0) hf'
  have h2 := h0 f (hm.zero _ h1)
  intro i hi
  obtain ⟨u, c, hu, rfl⟩ := row_surj hi
  rw [hf u c hu, mix_rows hβ (w := fun _ => 0) h2 hu, mix_zero]

end SD.Cov
