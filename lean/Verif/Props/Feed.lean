import Verif.Model.Feed
import Verif.Spec.Feed
import Verif.Lemmas.Green

/-!
# Feeding dumbbells from below (C74)
-/

set_option autoImplicit false

namespace SD

open Spec

theorem foldl_max_spec (l : List ℝ) (a : ℝ) : l.foldl max a ∈ a :: l ∧ ∀ x ∈ a :: l, x ≤ l.foldl max a := by
  induction l generalizing a with
  | nil => simp
  | cons b l ih =>
    obtain ⟨h1, h2⟩ := ih (max a b)
    simp only [List.foldl_cons, List.mem_cons] at h1 h2 ⊢
    refine ⟨?_, ?_⟩
    · rcases h1 with h | h
      · rcases max_choice a b with e | e <;> rw [h, e] <;> simp
      · exact .inr (.inr h)
    · have := h2 _ (.inl rfl)
      rintro x (rfl | rfl | hx)
      exacts [(le_max_left _ _).trans this, (le_max_right _ _).trans this, h2 _ (.inr hx)]

theorem foldl_min_spec (l : List ℝ) (a : ℝ) : l.foldl min a ∈ a :: l ∧ ∀ x ∈ a :: l, l.foldl min a ≤ x := by
  induction l generalizing a with
  | nil => simp
  | cons b l ih =>
    obtain ⟨h1, h2⟩ := ih (min a b)
    simp only [List.foldl_cons, List.mem_cons] at h1 h2 ⊢
    refine ⟨?_, ?_⟩
    · rcases h1 with h | h
      · rcases min_choice a b with e | e <;> rw [h, e] <;> simp
      · exact .inr (.inr h)
    · have := h2 _ (.inl rfl)
      rintro x (rfl | rfl | hx)
      exacts [this.trans (min_le_left _ _), this.trans (min_le_right _ _), h2 _ (.inr hx)]

theorem npMax_map {l : List Vec3} (f : Vec3 → ℝ) (h : l ≠ []) :
    ∃ t, npMax (l.map f) = .ok t ∧ (∃ p ∈ l, f p = t) ∧ ∀ p ∈ l, f p ≤ t := by
  obtain ⟨a, r, rfl⟩ := List.exists_cons_of_ne_nil h
  obtain ⟨h1, h2⟩ := foldl_max_spec (r.map f) (f a)
  rw [← List.map_cons] at h1 h2
  exact ⟨_, rfl, List.mem_map.mp h1, fun p hp => h2 _ (List.mem_map_of_mem hp)⟩

theorem npMin_map {l : List Vec3} (f : Vec3 → ℝ) (h : l ≠ []) :
    ∃ t, npMin (l.map f) = .ok t ∧ (∃ p ∈ l, f p = t) ∧ ∀ p ∈ l, t ≤ f p := by
  obtain ⟨a, r, rfl⟩ := List.exists_cons_of_ne_nil h
  obtain ⟨h1, h2⟩ := foldl_min_spec (r.map f) (f a)
  rw [← List.map_cons] at h1 h2
  exact ⟨_, rfl, List.mem_map.mp h1, fun p hp => h2 _ (List.mem_map_of_mem hp)⟩

theorem feedRows_eq (P : PosData) : feedRows P = dumbBeads P := by
  unfold feedRows dumbBeads
  congr 1 <;> refine List.map_congr_left fun d hd => ?_ <;> rw [List.mem_range] at hd <;> funext c
  · simp only [centre]
    rw [if_neg (by omega), if_neg (by omega), show P.Ns + P.Nd + d - (P.Ns + P.Nd) = d by omega]
    ring
  · simp only [centre]
    rw [if_neg (by omega), if_pos (by omega), show P.Ns + d - P.Ns = d by omega]
    ring

theorem dumbBeads_length (P : PosData) : (dumbBeads P).length = 2 * P.Nd := by
  simp [dumbBeads]; omega

theorem highest_unique {h h' : ℝ} {l : List Vec3} (a : Highest h l) (b : Highest h' l) : h = h' := by
  obtain ⟨⟨p, hp, rfl⟩, h1⟩ := a
  obtain ⟨⟨q, hq, rfl⟩, h2⟩ := b
  exact le_antisymm (h2 _ hp) (h1 _ hq)

theorem lowest_unique {h h' : ℝ} {l : List Vec3} (a : Lowest h l) (b : Lowest h' l) : h = h' := by
  obtain ⟨⟨p, hp, rfl⟩, h1⟩ := a
  obtain ⟨⟨q, hq, rfl⟩, h2⟩ := b
  exact le_antisymm (h1 _ hq) (h2 _ hp)

theorem clear_iff (keep : List Vec3) (a : ℝ) (p : Vec3) :
    feedClear keep a p = true ↔ ∀ q ∈ keep, 2 * a < gap p q := by
  simp only [feedClear, Bool.not_eq_true', List.any_eq_false, decide_eq_true_eq, norm3_eq_len, not_le]
  rfl

theorem filter_compl {α : Type*} (l : List α) (p : α → Bool) :
    (l.filter p).length + (l.filter fun x => !p x).length = l.length := by
  induction l with
  | nil => rfl
  | cons a l ih => cases h : p a <;> simp [h] <;> omega

open Classical in
/-- What the function computes when nothing raises, and when that is. -/
theorem feedBeads_eq {sort : List Vec3 → List Vec3} (hs : SortsByHeight sort) {d : Saved} {c : Config} {P : PosData}
    {r : ℕ} (hr : r < P.Ns) (hd : d.positions[0]? = some c) (hF : 0 < c.P.Nd) {top bottom : ℝ}
    (ht : Highest top (dumbBeads P)) (hb : Lowest bottom (dumbBeads P)) :
    (centre P r 2 < (top + bottom) / 2 → bottom - centre P r 2 ≤ (top - bottom) / 2 →
      ∃ new, feedBeads sort (some d) P r = .ok new ∧ Fed P c.P r new) ∧
    (¬ (centre P r 2 < (top + bottom) / 2 ∧ bottom - centre P r 2 ≤ (top - bottom) / 2) →
      feedBeads sort (some d) P r = .error .empty) := by
  have hz : P.spherePos r 2 = centre P r 2 := by simp [centre, hr]
  have hne : dumbBeads P ≠ [] := by
    obtain ⟨⟨p, hp, -⟩, -⟩ := ht
    exact List.ne_nil_of_mem hp
  obtain ⟨u, hu, ⟨p1, m1, e1⟩, b1⟩ := npMax_map (fun p => p 2 - P.spherePos r 2) hne
  obtain ⟨l, hl, ⟨p2, m2, e2⟩, b2⟩ := npMin_map (fun p => p 2 - P.spherePos r 2) hne
  obtain ⟨bo, hbo, e3, b3⟩ := npMin_map (fun p => p 2) hne
  obtain rfl : bo = bottom := lowest_unique ⟨e3, b3⟩ hb
  have eu : u = top - centre P r 2 := by
    have : Highest (u + centre P r 2) (dumbBeads P) := by
      refine ⟨⟨p1, m1, ?_⟩, fun p hp => ?_⟩
      · rw [← e1, hz]; ring
      · have := b1 p hp
        rw [hz] at this; linarith
    linarith [highest_unique this ht]
  have el : l = bo - centre P r 2 := by
    have : Lowest (l + centre P r 2) (dumbBeads P) := by
      refine ⟨⟨p2, m2, ?_⟩, fun p hp => ?_⟩
      · rw [← e2, hz]; ring
      · have := b2 p hp
        rw [hz] at this; linarith
    linarith [lowest_unique this hb]
  have lev : P.spherePos r 2 + -l + 0.5 * (u - -l) = centre P r 2 + (top - bo) / 2 := by
    rw [hz, eu, el]; ring
  have hset : same_setup_as d 0 (P.sphereSize 0) (P.dumbSize 0) = some
      { P := { c.P with sphereSize := fun _ => P.sphereSize 0, dumbSize := fun _ => P.dumbSize 0 }
        rots := defaultRots c.P.spherePos fun _ => P.sphereSize 0 } := by
    simp [same_setup_as, hd]
  have hstay : ∀ p : Vec3, decide (p 2 ≤ centre P r 2 + (top - bo) / 2)
      = decide (p 2 - centre P r 2 ≤ (top - bo) / 2) := fun p => by
    congr 1; rw [eq_iff_iff]; constructor <;> intro h <;> linarith
  have hgone : ∀ p : Vec3, decide (p 2 > centre P r 2 + (top - bo) / 2)
      = decide (¬ (p 2 - centre P r 2 ≤ (top - bo) / 2)) := fun p => by
    congr 1; rw [eq_iff_iff]; constructor <;> intro h <;> linarith
  set kept := (dumbBeads P).filter fun p => decide (p 2 - centre P r 2 ≤ (top - bo) / 2) with hkept
  set gone := (dumbBeads P).filter fun p => decide ¬ (p 2 - centre P r 2 ≤ (top - bo) / 2) with hgone'
  have hlen : kept.length + gone.length = 2 * P.Nd := by
    rw [← dumbBeads_length, ← filter_compl (dumbBeads P) fun p => decide (p 2 - centre P r 2 ≤ (top - bo) / 2)]
    rw [hkept, hgone']
    simp only [decide_not]
  set low := (sort (dumbBeads c.P)).take (P.Nd * 2 - kept.length) with hlow
  have hlowlen : low.length = min gone.length (2 * c.P.Nd) := by
    rw [hlow, List.length_take, (hs _).1.length_eq, dumbBeads_length]; omega
  have unf : feedBeads sort (some d) P r = (do
      let t ← npMax (low.map fun p => p 2)
      let _ ← npMin (kept.map fun p => p 2)
      let new := kept ++ (low.map fun p => p - ![0, 0, t - bo]).filter (feedClear kept (P.dumbSize 0))
      let new := if new.length > P.Nd * 2 then new.take (P.Nd * 2) else new
      if new.length < P.Nd * 2 then .ok (new ++ gone.take (P.Nd * 2 - new.length)) else .ok new) := by
    unfold feedBeads
    simp only [feedRows_eq]
    rw [if_neg (by omega), hu, hl]
    simp only [bind, Except.bind, Option.bind_some, hset, lev, hstay, hgone, hbo]
    rfl
  have hle : ∀ t, (kept ++ (low.map fun p : Vec3 => p - ![0, 0, t - bo]).filter
      (feedClear kept (P.dumbSize 0))).length ≤ P.Nd * 2 := by
    intro t
    rw [List.length_append]
    have := List.length_filter_le (feedClear kept (P.dumbSize 0)) (low.map fun p : Vec3 => p - ![0, 0, t - bo])
    rw [List.length_map] at this
    omega
  have gone_iff : gone ≠ [] ↔ centre P r 2 < (top + bo) / 2 := by
    rw [Ne, List.eq_nil_iff_forall_not_mem]
    push Not
    simp only [hgone', List.mem_filter, decide_eq_true_eq, not_le]
    obtain ⟨⟨p, hp, rfl⟩, h2⟩ := ht
    constructor
    · rintro ⟨q, hq, h⟩
      have := h2 q hq
      linarith
    · exact fun h => ⟨p, hp, by linarith⟩
  have kept_iff : kept ≠ [] ↔ bo - centre P r 2 ≤ (top - bo) / 2 := by
    rw [Ne, List.eq_nil_iff_forall_not_mem]
    push Not
    simp only [hkept, List.mem_filter, decide_eq_true_eq]
    obtain ⟨⟨p, hp, rfl⟩, h2⟩ := hb
    constructor
    · rintro ⟨q, hq, h⟩
      have := h2 q hq
      linarith
    · exact fun h => ⟨p, hp, h⟩
  have low_iff : low ≠ [] ↔ centre P r 2 < (top + bo) / 2 := by
    rw [← gone_iff, ← List.length_pos_iff, ← List.length_pos_iff, hlowlen]
    omega
  refine ⟨fun h1 h2 => ?_, fun h => ?_⟩
  · obtain ⟨t, ht', e4, b4⟩ := npMax_map (fun p => p 2) (low_iff.mpr h1)
    obtain ⟨k, hk, -, -⟩ := npMin_map (fun p => p 2) (kept_iff.mpr h2)
    rw [unf, ht', hk]
    simp only [bind, Except.bind]
    rw [if_neg (not_lt.mpr (hle t))]
    have hshift : ∀ p : Vec3, p - ![0, 0, t - bo] = ![p 0, p 1, p 2 - t + bo] := fun p => by
      funext i
      fin_cases i <;> simp
      ring
    have hclear : feedClear kept (P.dumbSize 0)
        = fun p => decide (∀ q ∈ kept, 2 * P.dumbSize 0 < gap p q) := by
      funext p
      rw [Bool.eq_iff_iff, clear_iff, decide_eq_true_eq]
    have hl := hle t
    have hA : kept ++ (low.map fun p : Vec3 => p - ![0, 0, t - bo]).filter (feedClear kept (P.dumbSize 0))
        = kept ++ (low.map fun p => ![p 0, p 1, p 2 - t + bo]).filter fun p =>
          decide (∀ q ∈ kept, 2 * P.dumbSize 0 < gap p q) := by
      simp only [hshift, hclear]
    generalize kept ++ (low.map fun p : Vec3 => p - ![0, 0, t - bo]).filter (feedClear kept (P.dumbSize 0)) = A at hA hl ⊢
    have hperm : (low ++ (sort (dumbBeads c.P)).drop (P.Nd * 2 - kept.length)).Perm (dumbBeads c.P) := by
      rw [hlow, List.take_append_drop]
      exact (hs _).1
    have hord : ∀ x ∈ low, ∀ y ∈ (sort (dumbBeads c.P)).drop (P.Nd * 2 - kept.length), x 2 ≤ y 2 := by
      have := (hs (dumbBeads c.P)).2
      rw [← List.take_append_drop (P.Nd * 2 - kept.length) (sort (dumbBeads c.P)), List.pairwise_append] at this
      exact this.2.2
    split_ifs with hlt
    · refine ⟨_, rfl, ⟨?_, top, bo, t, low, _, gone.take _, ht, hb, hperm, hord, ⟨e4, b4⟩, hlowlen,
        List.take_prefix _ _, by rw [hA]⟩⟩
      have : kept.length ≤ A.length := by rw [hA, List.length_append]; omega
      rw [List.length_append, List.length_take, min_eq_left (by omega)]
      omega
    · exact ⟨_, rfl, ⟨by omega, top, bo, t, low, _, [], ht, hb, hperm, hord, ⟨e4, b4⟩, hlowlen,
        List.nil_prefix, by rw [hA, List.append_nil]⟩⟩
  · rw [unf]
    by_cases h1 : centre P r 2 < (top + bo) / 2
    · obtain ⟨t, ht', -, -⟩ := npMax_map (fun p => p 2) (low_iff.mpr h1)
      have : kept = [] := by
        by_contra hk
        exact h ⟨h1, kept_iff.mp hk⟩
      rw [ht', this]
      rfl
    · have : low = [] := by
        by_contra hk
        exact h1 (low_iff.mp hk)
      rw [this]
      rfl

theorem highest_exists {l : List Vec3} (h : l ≠ []) : ∃ t, Highest t l :=
  let ⟨t, _, h⟩ := npMax_map (fun p => p 2) h
  ⟨t, h⟩

theorem lowest_exists {l : List Vec3} (h : l ≠ []) : ∃ t, Lowest t l :=
  let ⟨t, _, h⟩ := npMin_map (fun p => p 2) h
  ⟨t, h⟩

/-- **C74** (when). The list of beads is made exactly if there is the reference sphere, the file has a frame with
dumbbells, the sphere is below the middle height of the beads, and the lowest bead is not too high above it. -/
theorem C74_completes {sort : List Vec3 → List Vec3} (hs : SortsByHeight sort) (file : Option Saved) (P : PosData)
    (r : ℕ) : (∃ new, feedBeads sort file P r = .ok new) ↔
      r < P.Ns ∧ (∃ d c, file = some d ∧ d.positions[0]? = some c ∧ 0 < c.P.Nd) ∧
      ∃ top bottom, Highest top (dumbBeads P) ∧ Lowest bottom (dumbBeads P) ∧
        centre P r 2 < (top + bottom) / 2 ∧ bottom - centre P r 2 ≤ (top - bottom) / 2 := by
  constructor
  · rintro ⟨new, h⟩
    have hr : r < P.Ns := by
      by_contra hr
      unfold feedBeads at h
      rw [if_pos (not_lt.mp hr)] at h
      cases h
    have hne : dumbBeads P ≠ [] := by
      intro hne
      unfold feedBeads at h
      rw [if_neg (by omega), feedRows_eq, hne] at h
      cases h
    obtain ⟨top, ht⟩ := highest_exists hne
    obtain ⟨bottom, hb⟩ := lowest_exists hne
    have hfile : ∃ d c, file = some d ∧ d.positions[0]? = some c ∧ 0 < c.P.Nd := by
      obtain ⟨u, hu, -⟩ := npMax_map (fun p => p 2 - P.spherePos r 2) hne
      obtain ⟨l, hl, -⟩ := npMin_map (fun p => p 2 - P.spherePos r 2) hne
      unfold feedBeads at h
      rw [if_neg (by omega), feedRows_eq] at h
      simp only [hu, hl, bind, Except.bind] at h
      rcases file with - | d
      · cases h
      · rcases hc : d.positions[0]? with - | c
        · simp [same_setup_as, hc] at h
        · refine ⟨d, c, rfl, hc, ?_⟩
          by_contra h0
          have hN : c.P.Nd = 0 := by omega
          have hsn : sort [] = [] := (hs []).1.eq_nil
          simp [same_setup_as, hc, feedRows, hN, hsn, npMax] at h
    refine ⟨hr, hfile, top, bottom, ht, hb, ?_⟩
    obtain ⟨d, c, rfl, hc, hF⟩ := hfile
    by_contra hcon
    rw [(feedBeads_eq hs hr hc hF ht hb).2 hcon] at h
    cases h
  · rintro ⟨hr, ⟨d, c, rfl, hc, hF⟩, top, bottom, ht, hb, h1, h2⟩
    obtain ⟨new, h, -⟩ := (feedBeads_eq hs hr hc hF ht hb).1 h1 h2
    exact ⟨new, h⟩

/-- **C74** (beads). The list of beads made is that of a suspension fed from the first frame of the file. -/
theorem C74_beads {sort : List Vec3 → List Vec3} (hs : SortsByHeight sort) {file : Option Saved} {P : PosData} {r : ℕ}
    {new : List Vec3} (h : feedBeads sort file P r = .ok new) :
    ∃ d c, file = some d ∧ d.positions[0]? = some c ∧ Fed P c.P r new := by
  obtain ⟨hr, ⟨d, c, rfl, hc, hF⟩, top, bottom, ht, hb, h1, h2⟩ := (C74_completes hs file P r).mp ⟨new, h⟩
  obtain ⟨new', h', hfed⟩ := (feedBeads_eq hs hr hc hF ht hb).1 h1 h2
  rw [h, Except.ok.injEq] at h'
  exact ⟨d, c, rfl, hc, h' ▸ hfed⟩

/-- **C74** (clear). Every bead that was not there before is level with or below the lowest old bead, and does not
touch the beads that stayed. -/
theorem C74_clear {sort : List Vec3 → List Vec3} (hs : SortsByHeight sort) {file : Option Saved} {P : PosData} {r : ℕ}
    {new : List Vec3} (h : feedBeads sort file P r = .ok new) {p : Vec3} (hp : p ∈ new) (hn : p ∉ dumbBeads P) :
    (∀ q ∈ dumbBeads P, p 2 ≤ q 2) ∧
    ∀ top bottom, Highest top (dumbBeads P) → Lowest bottom (dumbBeads P) → ∀ q ∈ dumbBeads P,
      q 2 - centre P r 2 ≤ (top - bottom) / 2 → 2 * P.dumbSize 0 < gap p q := by
  obtain ⟨d, c, -, -, hfed⟩ := C74_beads hs h
  obtain ⟨top, bottom, t, low, rest, back, ht, hb, -, -, hlow, -, hback, rfl⟩ := hfed.parts
  rw [List.mem_append, List.mem_append] at hp
  rcases hp with (hp | hp) | hp
  · exact absurd (List.mem_of_mem_filter hp) hn
  · rw [List.mem_filter, List.mem_map, decide_eq_true_eq] at hp
    obtain ⟨⟨x, hx, rfl⟩, hq⟩ := hp
    refine ⟨fun q hq => ?_, fun top' bottom' ht' hb' q hq' hle => ?_⟩
    · have h1 := hlow.2 x hx
      have h2 := hb.2 q hq
      show x 2 - t + bottom ≤ q 2
      linarith
    · rw [highest_unique ht' ht, lowest_unique hb' hb] at hle
      exact hq q (List.mem_filter.mpr ⟨hq', decide_eq_true hle⟩)
  · exact absurd (List.mem_of_mem_filter (hback.subset hp)) hn

/-- **C74** (never returns). The function gives back the suspension it was given in frames in which nothing is to be
fed, and raises in all the others. -/
theorem C74_returns (sort : List Vec3 → List Vec3) (file : Option Saved) (c c' : Config) (every frameno r : ℕ) :
    feed_particles_from_bottom sort file c every frameno r = .ok c' ↔
      c' = c ∧ (every = 0 ∨ ¬ every ∣ frameno ∨ frameno = 0) := by
  unfold feed_particles_from_bottom
  rw [Nat.dvd_iff_mod_eq_zero]
  split_ifs with h
  · rw [Except.ok.injEq]
    exact ⟨fun e => ⟨e.symm, h⟩, fun e => e.1.symm⟩
  · refine ⟨fun e => ?_, fun e => absurd e.2 h⟩
    cases hf : feedBeads sort file c.P r with
    | error x => rw [hf] at e; cases e
    | ok x => rw [hf] at e; cases e

/-! ## Examples -/

/-- A sphere at the origin, and a dumbbell with beads at the heights 10 and -2. -/
noncomputable def tallP : PosData where
  Ns := 1
  Nd := 1
  sphereSize := fun _ => 1
  spherePos := fun _ => 0
  dumbSize := fun _ => 1 / 10
  dumbPos := fun _ => ![3, 0, 4]
  dumbDx := fun _ => ![0, 0, 12]

/-- A dumbbell with beads at the heights 0 and 1. -/
noncomputable def stockP : PosData where
  Ns := 0
  Nd := 1
  sphereSize := fun _ => 1
  spherePos := fun _ => 0
  dumbSize := fun _ => 1 / 10
  dumbPos := fun _ => ![7, 0, 1 / 2]
  dumbDx := fun _ => ![0, 0, 1]

theorem tall_beads : dumbBeads tallP = [![3, 0, 10], ![3, 0, -2]] := by
  simp only [dumbBeads, tallP, List.range_one, List.map_cons, List.map_nil, List.cons_append, List.nil_append]
  congr 1
  · funext i; fin_cases i <;> norm_num [centre]
  · congr 1
    funext i; fin_cases i <;> norm_num [centre]

/-- Insertion sort by height. -/
noncomputable def heightSort (l : List Vec3) : List Vec3 := l.mergeSort fun p q => decide (p 2 ≤ q 2)

theorem heightSort_sorts : SortsByHeight heightSort := by
  intro l
  refine ⟨List.mergeSort_perm _ _, ?_⟩
  have := List.pairwise_mergeSort (le := fun p q : Vec3 => decide (p 2 ≤ q 2)) (fun a b c h1 h2 => by
    simp only [decide_eq_true_eq] at *; linarith) (fun a b => by
    simp only [Bool.or_eq_true, decide_eq_true_eq]; exact le_total _ _) l
  exact this.imp fun h => by simpa using h

theorem tall_top : Highest 10 (dumbBeads tallP) ∧ Lowest (-2) (dumbBeads tallP) := by
  rw [tall_beads]
  simp [Highest, Lowest]
  norm_num

/-- One bead is taken off the top, and in frame 50 the function raises. -/
example : ∃ (file : Option Saved) (new : List Vec3), feedBeads heightSort file tallP 0 = .ok new ∧ new.length = 2 ∧
    ![3, 0, -2] ∈ new ∧
    feed_particles_from_bottom heightSort file ⟨tallP, defaultRots tallP.spherePos tallP.sphereSize⟩ 10 50 0
      = .error .floatSlice := by
  set file : Option Saved := some ⟨[⟨stockP, defaultRots stockP.spherePos stockP.sphereSize⟩], []⟩
  have hc : centre tallP 0 2 = 0 := by simp [centre, tallP]
  obtain ⟨new, h⟩ := (C74_completes heightSort_sorts file tallP 0).mpr ⟨by simp [tallP], ⟨_, _, rfl, rfl, by simp [stockP]⟩,
    10, -2, tall_top.1, tall_top.2, by rw [hc]; norm_num, by rw [hc]; norm_num⟩
  obtain ⟨d, c, -, -, hfed⟩ := C74_beads heightSort_sorts h
  refine ⟨file, new, h, hfed.count, ?_, ?_⟩
  · obtain ⟨top, bottom, t, low, rest, back, ht, hb, -, -, -, -, -, rfl⟩ := hfed.parts
    refine List.mem_append_left _ (List.mem_append_left _ (List.mem_filter.mpr ⟨by rw [tall_beads]; simp, ?_⟩))
    simp only [decide_eq_true_eq]
    rw [highest_unique ht tall_top.1, lowest_unique hb tall_top.2, hc]
    show (-2 : ℝ) - 0 ≤ _
    norm_num
  · unfold feed_particles_from_bottom
    rw [if_neg (by norm_num), h]
    rfl

end SD
