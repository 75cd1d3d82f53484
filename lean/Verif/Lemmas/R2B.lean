import Verif.Lemmas.NearLoop

/-!
# Entry of the near-field loop
-/

set_option autoImplicit false

namespace SD

open Spec

/-- The scalars read from a table. -/
noncomputable def tableScal (T : ScalarTable) (g : ℕ) (lam s : ℝ) : Scalars :=
  scalarsAt T g s ((lamIndex T lam).getD 0)

/-- The pair list describes the neighbours `link`. -/
structure Links (n : ℕ) (size : ℕ → ℝ) (ps : List ClosePair)
    (link : ℕ → ℕ → Option ((Fin 3 → ℝ) × ℝ)) : Prop where
  range : ∀ p ∈ ps, p.i ≤ p.j ∧ p.j < n
  self : ∀ x < n, ∃ p ∈ ps, p.i = x ∧ p.j = x
  nodup : ps.Pairwise fun p q => ¬ (p.i = q.i ∧ p.j = q.j)
  ratio : ∀ p ∈ ps, p.ratio = size p.j / size p.i
  fwd : ∀ p ∈ ps, p.i ≠ p.j → link p.i p.j = some (fun k => p.disp k / p.dist, p.dist)
  bwd : ∀ p ∈ ps, p.i ≠ p.j → link p.j p.i = some (fun k => -(p.disp k / p.dist), p.dist)
  none : ∀ x < n, ∀ y < n, x ≠ y → (∀ p ∈ ps, ¬ touches p.i p.j x y) → link x y = none
  unit : ∀ p ∈ ps, p.i ≠ p.j → dotp (fun k => p.disp k / p.dist) (fun k => p.disp k / p.dist) = 1

/-- Every size ratio that is looked up is in the table. -/
def Found (T : ScalarTable) (n : ℕ) (size : ℕ → ℝ) (link : ℕ → ℕ → Option ((Fin 3 → ℝ) × ℝ)) : Prop :=
  ∀ x < n, ∀ y < n, (x = y ∨ link x y ≠ none) → lamIndex T (size y / size x) ≠ none

theorem mapM_some {α β : Type} (f : α → Option β) (g : α → β) (l : List α)
    (h : ∀ a ∈ l, f a = some (g a)) : l.mapM f = some (l.map g) := by
  induction l with
  | nil => simp
  | cons a l ih =>
    rw [List.mapM_cons, h a (by simp), ih fun b hb => h b (by simp [hb])]
    rfl

open Classical in
theorem sum_single {α : Type} (l : List α) (P : α → Prop) [DecidablePred P] (c : ℝ)
    (h : l.Pairwise fun p q => ¬ (P p ∧ P q)) :
    (l.map fun p => if P p then c else 0).sum = if ∃ p ∈ l, P p then c else 0 := by
  induction l with
  | nil => simp
  | cons a l ih =>
    rw [List.map_cons, List.sum_cons, ih (List.pairwise_cons.mp h).2]
    by_cases ha : P a
    · have : ¬ ∃ p ∈ l, P p := by
        rintro ⟨p, hp, hP⟩
        exact (List.pairwise_cons.mp h).1 p hp ⟨ha, hP⟩
      rw [if_pos ha, if_neg this, if_pos ⟨a, by simp, ha⟩, add_zero]
    · rw [if_neg ha, zero_add]
      refine if_congr ?_ rfl rfl
      simp [ha]

theorem sum_flatMap' {α β : Type} (l : List α) (f : α → List β) (g : β → ℝ) :
    ((l.flatMap f).map g).sum = (l.map fun a => ((f a).map g).sum).sum := by
  induction l with
  | nil => simp
  | cons a l ih => simp only [List.flatMap_cons, List.map_append, List.sum_append, List.map_cons,
      List.sum_cons, ih]

theorem sum_list_finset {α : Type} (l : List α) (n : ℕ) (f : α → ℕ → ℝ) :
    (l.map fun p => ∑ z ∈ Finset.range n, f p z).sum
      = ∑ z ∈ Finset.range n, (l.map fun p => f p z).sum := by
  induction l with
  | nil => simp
  | cons a l ih => simp only [List.map_cons, List.sum_cons, ih, Finset.sum_add_distrib]

section
variable {T : ScalarTable} {Ns Nd n : ℕ} {size : ℕ → ℝ} {bb : Bool} {ps : List ClosePair}
  {link : ℕ → ℕ → Option ((Fin 3 → ℝ) × ℝ)} (hL : Links n size ps link) (hT : Found T n size link)
include hL hT

/-- What a neighbour contributes to a function of its link. -/
noncomputable def linkTerm (T : ScalarTable) (size : ℕ → ℝ)
    (link : ℕ → ℕ → Option ((Fin 3 → ℝ) × ℝ)) (G : Neighbour → ℝ) (u z : ℕ) : ℝ :=
  match link u z with
  | none => 0
  | some (d, s) => G ⟨(lamIndex T (size z / size u)).getD 0, d, s⟩

/-- The sum over a bead's neighbour list is the sum over all linked beads. -/
theorem neighbours_sum (u : ℕ) (hu : u < n) :
    ∃ nb, neighbours T size ps u = some nb ∧ (∀ m ∈ nb, dotp m.d m.d = 1) ∧ ∀ G : Neighbour → ℝ,
      nbSum nb G = ∑ z ∈ Finset.range n, if z = u then 0 else linkTerm T size link G u z := by
  classical
  set g : Nearby → Neighbour := fun m =>
    ⟨(lamIndex T (size m.bead / size u)).getD 0, fun k => m.disp k / m.dist, m.dist⟩ with hg
  have hmem : ∀ m ∈ nearbyBeads ps u, ∃ p ∈ ps, p.i ≠ p.j ∧
      ((p.i = u ∧ m = ⟨p.j, p.disp, p.dist⟩) ∨ (p.j = u ∧ m = ⟨p.i, -p.disp, p.dist⟩)) := by
    intro m hm
    simp only [nearbyBeads, List.mem_flatMap, List.mem_append] at hm
    obtain ⟨p, hp, h⟩ := hm
    refine ⟨p, hp, ?_⟩
    rcases h with h | h
    · split_ifs at h with hc
      · exact ⟨hc.2, Or.inl ⟨hc.1, by simpa using h⟩⟩
      · simp at h
    · split_ifs at h with hc
      · exact ⟨hc.2, Or.inr ⟨hc.1, by simpa using h⟩⟩
      · simp at h
  refine ⟨(nearbyBeads ps u).map g, ?_, ?_, ?_⟩
  · refine mapM_some _ g _ fun m hm => ?_
    obtain ⟨p, hp, hne, h⟩ := hmem m hm
    have hr := hL.range p hp
    have : lamIndex T (size m.bead / size u) ≠ none := by
      rcases h with ⟨h1, rfl⟩ | ⟨h1, rfl⟩
      · subst h1
        refine hT p.i (by omega) p.j (by omega) (Or.inr ?_)
        rw [hL.fwd p hp hne]; simp
      · subst h1
        refine hT p.j (by omega) p.i (by omega) (Or.inr ?_)
        rw [hL.bwd p hp hne]; simp
    obtain ⟨l, hl⟩ := Option.ne_none_iff_exists'.mp this
    simp [hg, hl]
  · intro m hm
    obtain ⟨m', hm', rfl⟩ := List.mem_map.mp hm
    obtain ⟨p, hp, hne, h⟩ := hmem m' hm'
    have h1 := hL.unit p hp hne
    rcases h with ⟨-, rfl⟩ | ⟨-, rfl⟩
    · exact h1
    · simp only [hg, Pi.neg_apply, dotp] at h1 ⊢
      rw [← h1]; ring
  · intro G
    have e1 : nbSum ((nearbyBeads ps u).map g) G = (ps.map fun p =>
        ∑ z ∈ Finset.range n, if touches p.i p.j u z ∧ z ≠ u then linkTerm T size link G u z else 0).sum := by
      unfold nbSum nearbyBeads
      rw [List.map_map, sum_flatMap']
      congr 1
      apply List.map_congr_left
      intro p hp
      have hr := hL.range p hp
      by_cases hne : p.i = p.j
      · rw [if_neg (by tauto), if_neg (by tauto)]
        simp only [List.append_nil, List.map_nil, List.sum_nil]
        symm
        apply Finset.sum_eq_zero
        intro z _
        rw [if_neg]
        unfold touches; omega
      · by_cases h1 : p.i = u
        · rw [if_pos ⟨h1, hne⟩, if_neg (by omega)]
          subst h1
          rw [Finset.sum_eq_single p.j]
          · rw [if_pos ⟨Or.inl ⟨rfl, rfl⟩, Ne.symm hne⟩]
            simp [linkTerm, hL.fwd p hp hne, hg]
          · intro z _ hz
            rw [if_neg]
            unfold touches; omega
          · intro h; exact absurd (Finset.mem_range.mpr hr.2) h
        · by_cases h2 : p.j = u
          · rw [if_neg (by omega), if_pos ⟨h2, hne⟩]
            subst h2
            rw [Finset.sum_eq_single p.i]
            · rw [if_pos ⟨Or.inr ⟨rfl, rfl⟩, hne⟩]
              simp [linkTerm, hL.bwd p hp hne, hg, neg_div]
            · intro z _ hz
              rw [if_neg]
              unfold touches; omega
            · intro h; exact absurd (Finset.mem_range.mpr (by omega)) h
          · rw [if_neg (by tauto), if_neg (by tauto)]
            simp only [List.append_nil, List.map_nil, List.sum_nil]
            symm
            apply Finset.sum_eq_zero
            intro z _
            rw [if_neg]
            unfold touches; omega
    rw [e1, sum_list_finset]
    apply Finset.sum_congr rfl
    intro z hz
    have hz := Finset.mem_range.mp hz
    by_cases hzu : z = u
    · simp [hzu]
    · rw [if_neg hzu]
      have e2 := sum_single ps (fun p => touches p.i p.j u z ∧ z ≠ u) (linkTerm T size link G u z) (by
        refine (List.Pairwise.and_mem.mp hL.nodup).imp ?_
        rintro p q ⟨hp, hq, hpq⟩ ⟨⟨a1, a2⟩, a3, a4⟩
        have r1 := hL.range p hp
        have r2 := hL.range q hq
        unfold touches at a1 a3
        omega)
      refine Eq.trans e2 ?_
      split_ifs with hex
      · rfl
      · have : link u z = none := by
          refine hL.none u hu z hz (Ne.symm hzu) fun p hp ht => hex ⟨p, hp, ht, hzu⟩
        simp [linkTerm, this]

end

theorem nearPair_lower (zab zba : Scalars) (first : Prop) [Decidable first] (a b : ℝ)
    (d : Fin 3 → ℝ) {c1 c2 : Comp} (h : order c1 < order c2) :
    nearPair zab zba first a b d c1 c2 = nearDirect zba b (fun i => -d i) c2 c1 := by
  unfold nearPair
  rw [if_neg (by omega)]

theorem nbSum_congr {nb : List Neighbour} {f g : Neighbour → ℝ} (h : ∀ m ∈ nb, f m = g m) :
    nbSum nb f = nbSum nb g := by
  unfold nbSum
  rw [List.map_congr_left h]

/-- The value meant for an entry. -/
noncomputable def nVal (T : ScalarTable) (Ns n : ℕ) (bb : Bool) (size : ℕ → ℝ)
    (link : ℕ → ℕ → Option ((Fin 3 → ℝ) × ℝ)) (kx : Kind) (x : ℕ) (ky : Kind) (y p q : ℕ) : ℝ :=
  systemNear Ns n bb size (tableScal T) link x (compOf kx p) y (compOf ky q)

section
variable {T : ScalarTable} {Ns Nd n : ℕ} {size : ℕ → ℝ} {bb : Bool} {ps : List ClosePair}
  {link : ℕ → ℕ → Option ((Fin 3 → ℝ) × ℝ)} (hL : Links n size ps link) (hT : Found T n size link)

theorem systemNear_pair {Ns n : ℕ} {size : ℕ → ℝ} {bb : Bool} {scal : ℕ → ℝ → ℝ → Scalars}
    {link : ℕ → ℕ → Option ((Fin 3 → ℝ) × ℝ)} {x y : ℕ} (hxy : x ≠ y)
    (hbb : ¬ (bb = false ∧ Ns ≤ x ∧ Ns ≤ y)) {d : Fin 3 → ℝ} {s : ℝ} (hl : link x y = some (d, s))
    (c1 c2 : Comp) :
    systemNear Ns n bb size scal link x c1 y c2
      = nearPair (scal 1 (size y / size x) s) (scal 1 (size x / size y) s) (x < y)
        (size x) (size y) d c1 c2 := by
  unfold systemNear
  rw [if_neg hxy, if_neg hbb, hl]

theorem nVal_self_sum {nb : List Neighbour} {u : ℕ}
    (h : ∀ G : Neighbour → ℝ, nbSum nb G
      = ∑ z ∈ Finset.range n, if z = u then 0 else linkTerm T size link G u z) (c1 c2 : Comp) :
    systemNear Ns n bb size (tableScal T) link u c1 u c2
      = nbSum nb fun m => nearSelf (scalarsAt T 0 m.s m.lam) (size u) m.d c1 c2 := by
  rw [h]
  unfold systemNear
  rw [if_pos rfl]
  apply Finset.sum_congr rfl
  intro z _
  split_ifs
  · rfl
  · unfold linkTerm
    rcases link u z with _ | ⟨d, s⟩ <;> rfl

/-- The blocks of a sphere with itself. -/
theorem selfSphere_eq {nb : List Neighbour} {u : ℕ} (hd : ∀ m ∈ nb, dotp m.d m.d = 1)
    (h : ∀ G : Neighbour → ℝ, nbSum nb G
      = ∑ z ∈ Finset.range n, if z = u then 0 else linkTerm T size link G u z) (D : NDMat) :
    r2bSelfSphere T D (submatrix_coords_tuple u u Ns Nd) nb (size u)
    = let B := base Ns Nd
      let V := nVal T Ns n bb size link
      let D := writeAt D (B .F u, B .F u) 3 3 (V .F u .F u)
      let D := writeAt D (B .F u, B .T u) 3 3 (V .F u .T u)
      let D := writeAt D (B .T u, B .T u) 3 3 (V .T u .T u)
      let D := writeAt D (B .F u, B .S u) 3 5 (V .F u .S u)
      let D := writeAt D (B .T u, B .S u) 3 5 (V .T u .S u)
      writeAt D (B .S u, B .S u) 5 5 (V .S u .S u) := by
  have e : ∀ k1 k2 i j, nVal T Ns n bb size link k1 u k2 u i j
      = nbSum nb fun m => nearSelf (scalarsAt T 0 m.s m.lam) (size u) m.d (compOf k1 i) (compOf k2 j) :=
    fun k1 k2 i j => nVal_self_sum h _ _
  have eFF : nVal T Ns n bb size link .F u .F u = fun i j =>
      nbSum nb fun n => Af T 0 n.d n.lam n.s (f3 i) (f3 j) * (6 * Real.pi * size u) := by
    funext i j; rw [e]; exact nbSum_congr fun m hm => by rw [Af_direct]; rfl
  have eFT : nVal T Ns n bb size link .F u .T u = fun i j =>
      nbSum nb fun n => Bf T 0 n.d n.lam n.s (f3 j) (f3 i) * (4 * Real.pi * size u ^ 2) := by
    funext i j; rw [e]; exact nbSum_congr fun m hm => by rw [Bf_direct]; rfl
  have eTT : nVal T Ns n bb size link .T u .T u = fun i j =>
      nbSum nb fun n => Cf T 0 n.d n.lam n.s (f3 i) (f3 j) * (8 * Real.pi * size u ^ 3) := by
    funext i j; rw [e]; exact nbSum_congr fun m hm => by rw [Cf_direct]; rfl
  have eFS : nVal T Ns n bb size link .F u .S u = fun i j =>
      nbSum nb fun n => con_Gf_row T 0 n.d n.lam n.s (f3 i) (f5 j) * (4 * Real.pi * size u ^ 2) := by
    funext i j; rw [e]; exact nbSum_congr fun m hm => by rw [con_Gf_direct]; rfl
  have eTS : nVal T Ns n bb size link .T u .S u = fun i j =>
      nbSum nb fun n => con_Hf_row T 0 n.d n.lam n.s (f3 i) (f5 j) * (8 * Real.pi * size u ^ 3) := by
    funext i j; rw [e]; exact nbSum_congr fun m hm => by rw [con_Hf_direct]; rfl
  have eSS : nVal T Ns n bb size link .S u .S u = fun i j =>
      nbSum nb fun n => condense55 (Mf T 0 n.d n.lam n.s) (f5 i) (f5 j)
        * (20 / 3 * Real.pi * size u ^ 3) := by
    funext i j; rw [e]; exact nbSum_congr fun m hm => by rw [Mf_direct _ _ _ _ _ _ (hd m hm)]; rfl
  dsimp only
  rw [eFF, eFT, eTT, eFS, eTS, eSS]
  rfl

section
variable {u v l lr : ℕ} {d : Fin 3 → ℝ} {s : ℝ} (hl : link u v = some (d, s))
  (hr : link v u = some (fun k => -d k, s)) (hlam : lamIndex T (size v / size u) = some l)
  (hlamr : lamIndex T (size u / size v) = some lr)
include hl hlam hlamr

theorem nVal_fwd (huv : u < v) (hbb : ¬ (bb = false ∧ Ns ≤ u ∧ Ns ≤ v)) (k1 k2 : Kind) (i j : ℕ) :
    nVal T Ns n bb size link k1 u k2 v i j
      = nearPair (scalarsAt T 1 s l) (scalarsAt T 1 s lr) True (size u) (size v) d
        (compOf k1 i) (compOf k2 j) := by
  unfold nVal
  rw [systemNear_pair huv.ne hbb hl]
  simp only [tableScal, hlam, hlamr, Option.getD_some, nearPair, huv]

omit hl in
include hr in
theorem nVal_bwd (huv : u < v) (hbb : ¬ (bb = false ∧ Ns ≤ v ∧ Ns ≤ u)) (k1 k2 : Kind) (i j : ℕ) :
    nVal T Ns n bb size link k1 v k2 u i j
      = nearPair (scalarsAt T 1 s lr) (scalarsAt T 1 s l) False (size v) (size u) (fun k => -d k)
        (compOf k1 i) (compOf k2 j) := by
  unfold nVal
  rw [systemNear_pair huv.ne' hbb hr]
  simp only [tableScal, hlam, hlamr, Option.getD_some, nearPair, Nat.not_lt.mpr huv.le]

include hr

/-- The blocks of two different spheres. -/
theorem sphereSphereNear_eq (hd : dotp d d = 1) (huv : u < v) (hv : v < Ns) (hu0 : size u ≠ 0)
    (D : NDMat) :
    r2bSphereSphere T D (submatrix_coords_tuple u v Ns Nd) d l lr s (size v / size u) (size u) (size v)
    = let B := base Ns Nd
      let V := nVal T Ns n bb size link
      let D := writeAt D (B .F u, B .F v) 3 3 (V .F u .F v)
      let D := writeAt D (B .F u, B .T v) 3 3 (V .F u .T v)
      let D := writeAt D (B .T u, B .T v) 3 3 (V .T u .T v)
      let D := writeAt (writeAt D (B .F u, B .S v) 3 5 (V .F u .S v)) (B .T u, B .S v) 3 5 (V .T u .S v)
      let D := writeAt D (B .S u, B .S v) 5 5 (V .S u .S v)
      let D := writeAt D (B .F v, B .T u) 3 3 (V .F v .T u)
      let D := writeAt D (B .F v, B .S u) 3 5 (V .F v .S u)
      writeAt D (B .T v, B .S u) 3 5 (V .T v .S u) := by
  have hu : u < Ns := huv.trans hv
  have f := nVal_fwd (bb := bb) (Ns := Ns) (n := n) hl hlam hlamr huv (by omega)
  have b := nVal_bwd (bb := bb) (Ns := Ns) (n := n) hr hlam hlamr huv (by omega)
  have eFF : nVal T Ns n bb size link .F u .F v = fun i j =>
      Af T 1 d l s (f3 i) (f3 j) * (6 * Real.pi * size u) := by
    funext i j; rw [f, Af_direct]; rfl
  have eFT : nVal T Ns n bb size link .F u .T v = fun i j =>
      Bf T 1 (-d) lr s (f3 j) (f3 i) * (4 * Real.pi * size v ^ 2) := by
    funext i j; rw [f, Bf_direct]; rfl
  have eTT : nVal T Ns n bb size link .T u .T v = fun i j =>
      Cf T 1 d l s (f3 i) (f3 j) * (8 * Real.pi * size u ^ 3) := by
    funext i j; rw [f, Cf_direct]; rfl
  have eFS : nVal T Ns n bb size link .F u .S v = fun i j =>
      con_Gf_row T 1 (-d) lr s (f3 i) (f5 j) * (4 * Real.pi * size v ^ 2) := by
    funext i j; rw [f, con_Gf_direct]; rfl
  have eTS : nVal T Ns n bb size link .T u .S v = fun i j =>
      con_Hf_row T 1 (-d) lr s (f3 i) (f5 j) * (8 * Real.pi * size v ^ 3) := by
    funext i j; rw [f, con_Hf_direct]; rfl
  have eSS : nVal T Ns n bb size link .S u .S v = fun i j =>
      condense55 (Mf T 1 d l s) (f5 i) (f5 j) * (20 / 3 * Real.pi * size u ^ 3) := by
    funext i j; rw [f, Mf_direct _ _ _ _ _ _ hd]; rfl
  have nn : (fun i => - -d i) = d := by funext i; simp
  have eFT' : nVal T Ns n bb size link .F v .T u = fun i j =>
      Bf T 1 d l s (f3 j) (f3 i) * (4 * Real.pi * size u ^ 2) := by
    funext i j; rw [b, Bf_direct]
    rw [nearPair_lower _ _ _ _ _ _ (by simp [compOf, order]), nn]; rfl
  have eFS' : nVal T Ns n bb size link .F v .S u = fun i j =>
      con_Gf_row T 1 d l s (f3 i) (f5 j) * (4 * Real.pi * size u ^ 2) := by
    funext i j; rw [b, con_Gf_direct]
    rw [nearPair_lower _ _ _ _ _ _ (by simp [compOf, order]), nn]; rfl
  have eTS' : nVal T Ns n bb size link .T v .S u = fun i j =>
      con_Hf_row T 1 d l s (f3 i) (f5 j) * (8 * Real.pi * size u ^ 3) := by
    funext i j; rw [b, con_Hf_direct]
    rw [nearPair_lower _ _ _ _ _ _ (by simp [compOf, order]), nn]; rfl
  unfold r2bSphereSphere
  generalize hK : submatrix_coords_tuple u v Ns Nd = K
  have kBt21 : K.Bt21 = (base Ns Nd .F v, base Ns Nd .T u) := by subst hK; rfl
  have kGt21 : K.Gt21 = (base Ns Nd .F v, base Ns Nd .S u) := by subst hK; rfl
  have kHt21 : K.Ht21 = (base Ns Nd .T v, base Ns Nd .S u) := by subst hK; rfl
  have kA : K.A = (base Ns Nd .F u, base Ns Nd .F v) := by subst hK; rfl
  have kBt : K.Bt = (base Ns Nd .F u, base Ns Nd .T v) := by subst hK; rfl
  have kC : K.C = (base Ns Nd .T u, base Ns Nd .T v) := by subst hK; rfl
  have kGt : K.Gt = (base Ns Nd .F u, base Ns Nd .S v) := by subst hK; rfl
  have kHt : K.Ht = (base Ns Nd .T u, base Ns Nd .S v) := by subst hK; rfl
  have kM : K.M = (base Ns Nd .S u, base Ns Nd .S v) := by subst hK; rfl
  simp only [kA, kBt, kBt21, kGt, kGt21, kC, kHt, kHt21, kM]
  have hGH := fun D => rows2_eq 3 D (base Ns Nd .F u) (base Ns Nd .S v) 5
    (base Ns Nd .T u) (base Ns Nd .S v) 5
    (fun i j => con_Gf_row T 1 (-d) lr s (f3 i) (f5 j) * (4 * Real.pi * size v ^ 2))
    (fun i j => con_Hf_row T 1 (-d) lr s (f3 i) (f5 j) * (8 * Real.pi * size v ^ 3))
    (by simp only [base]; omega)
  have hGH' := fun D => rows2_eq 3 D (base Ns Nd .F v) (base Ns Nd .S u) 5
    (base Ns Nd .T v) (base Ns Nd .S u) 5
    (fun i j => con_Gf_row T 1 d l s (f3 i) (f5 j) * (4 * Real.pi * size u ^ 2))
    (fun i j => con_Hf_row T 1 d l s (f3 i) (f5 j) * (8 * Real.pi * size u ^ 3))
    (by simp only [base]; omega)
  simp only [hGH, hGH', ← eFF, ← eFT, ← eTT, ← eFS, ← eTS, ← eSS, ← eFT', ← eFS', ← eTS']
  have oFu : owns Ns Nd .F u := hu
  have oFv : owns Ns Nd .F v := hv
  have oTu : owns Ns Nd .T u := hu
  have oTv : owns Ns Nd .T v := hv
  have oSu : owns Ns Nd .S u := hu
  have oSv : owns Ns Nd .S v := hv
  by_cases he : size v / size u = 1
  · rw [if_pos he]
    have hsz : size v = size u := by rwa [div_eq_one_iff_eq hu0] at he
    have hll : l = lr := by
      rw [hsz] at hlam hlamr
      rw [hlam] at hlamr
      simpa using hlamr
    have pFT : ∀ i j, nVal T Ns n bb size link .F u .T v i j = -nVal T Ns n bb size link .F v .T u i j := by
      intro i j
      rw [f, b, nearPair_lower _ _ _ _ _ _ (by simp [compOf, order]),
        nearPair_lower _ _ _ _ _ _ (by simp [compOf, order]), nn, nearDirect_neg_odd _ _ _ (by simp [compOf, order]), hll, hsz]
    have pFS : ∀ i j, nVal T Ns n bb size link .F u .S v i j = -nVal T Ns n bb size link .F v .S u i j := by
      intro i j
      rw [f, b, nearPair_lower _ _ _ _ _ _ (by simp [compOf, order]),
        nearPair_lower _ _ _ _ _ _ (by simp [compOf, order]), nn, nearDirect_neg_odd _ _ _ (by simp [compOf, order]), hll, hsz]
    have pTS : ∀ i j, nVal T Ns n bb size link .T u .S v i j = nVal T Ns n bb size link .T v .S u i j := by
      intro i j
      rw [f, b, nearPair_lower _ _ _ _ _ _ (by simp [compOf, order]),
        nearPair_lower _ _ _ _ _ _ (by simp [compOf, order]), nn, nearDirect_neg_even _ _ _ (by simp [compOf, order]), hll, hsz]
    refine shortcut_chain (nVal T Ns n bb size link) _ hu hv ?_ ?_ ?_
    · intro i hi j hj
      rw [writeAt_get (kx := .F) (ky := .T) oSu oSv oFu oTv hi hj _ _ 5 5 rfl rfl _ rfl,
        if_neg (by simp),
        writeAt_get (kx := .F) (ky := .T) oTu oSv oFu oTv hi hj _ _ 3 5 rfl rfl _ rfl,
        if_neg (by simp),
        writeAt_get (kx := .F) (ky := .T) oFu oSv oFu oTv hi hj _ _ 3 5 rfl rfl _ rfl,
        if_neg (by simp),
        writeAt_get (kx := .F) (ky := .T) oTu oTv oFu oTv hi hj _ _ 3 3 rfl rfl _ rfl,
        if_neg (by simp),
        writeAt_get (kx := .F) (ky := .T) oFu oTv oFu oTv hi hj _ _ 3 3 rfl rfl _ rfl,
        if_pos (by simp), pFT]
    · intro i hi j hj
      rw [writeAt_get (kx := .F) (ky := .S) oSu oSv oFu oSv hi hj _ _ 5 5 rfl rfl _ rfl,
        if_neg (by simp),
        writeAt_get (kx := .F) (ky := .S) oTu oSv oFu oSv hi hj _ _ 3 5 rfl rfl _ rfl,
        if_neg (by simp),
        writeAt_get (kx := .F) (ky := .S) oFu oSv oFu oSv hi hj _ _ 3 5 rfl rfl _ rfl,
        if_pos (by simp), pFS]
    · intro i hi j hj
      rw [writeAt_get (kx := .T) (ky := .S) oSu oSv oTu oSv hi hj _ _ 5 5 rfl rfl _ rfl,
        if_neg (by simp),
        writeAt_get (kx := .T) (ky := .S) oTu oSv oTu oSv hi hj _ _ 3 5 rfl rfl _ rfl,
        if_pos (by simp), pTS]
  · rw [if_neg he]

omit hr in
/-- The blocks of a sphere and a dumbbell bead. -/
theorem sphereBeadNear_eq (kv : Kind) (hk : kv = .B1 ∨ kv = .B2) (huv : u < v) (hu : u < Ns)
    (D : NDMat) (K1 K2 K3 : ℕ × ℕ) :
    r2bSphereBead T D K1 K2 K3 d l s (size u)
    = writeAt (writeAt (writeAt D K1 3 3 (nVal T Ns n bb size link .F u kv v))
      K2 3 3 (nVal T Ns n bb size link .T u kv v)) K3 5 3 (nVal T Ns n bb size link .S u kv v) := by
  have f := nVal_fwd (bb := bb) (Ns := Ns) (n := n) hl hlam hlamr huv (by omega)
  have hc : ∀ j, compOf kv j = .f (f3 j) := by rcases hk with rfl | rfl <;> exact fun _ => rfl
  have e1 : nVal T Ns n bb size link .F u kv v = fun i j =>
      Af T 1 d l s (f3 i) (f3 j) * (6 * Real.pi * size u) := by
    funext i j; rw [f, Af_direct, hc]; rfl
  have e2 : nVal T Ns n bb size link .T u kv v = fun i j =>
      Bf T 1 d l s (f3 i) (f3 j) * (4 * Real.pi * size u ^ 2) := by
    funext i j; rw [f, Bf_direct, hc]; rfl
  have e3 : nVal T Ns n bb size link .S u kv v = fun i j =>
      condense53 (fun j i k => Gf T 1 d l s i k j) (f5 i) (f3 j) * (4 * Real.pi * size u ^ 2) := by
    funext i j
    rw [f, condense53_five, ← con_Gf_five, con_Gf_direct, hc]; rfl
  rw [e1, e2, e3]
  rfl

end

end

end SD
