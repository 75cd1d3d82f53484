import Verif.Lemmas.Polygon
import Verif.Lemmas.Placement
import Mathlib.Tactic.IntervalCases

/-!
# Properties: points inside a convex polygon
-/

set_option autoImplicit false

namespace SD

open Spec Poly

/-! ## C70: points inside a polygon -/

/-- **C70** (inside). For every convex polygon, whichever way round its corners are listed, a point in the
interior is found to be inside. -/
theorem C70_inside {poly : List (ℝ × ℝ)} (h : ConvexPolygon poly) {x y : ℝ}
    (hp : (x, y) ∈ interior (region poly)) : point_inside_polygon x y poly = some true := by
  obtain ⟨s, h⟩ := round_of h
  have hne : poly ≠ [] := by rintro rfl; have := h.many; simp at this
  obtain ⟨i, hi⟩ : ∃ i, (corner poly i).2 < y := by
    by_contra hc
    push Not at hc
    have hsub : region poly ⊆ {r : ℝ × ℝ | y ≤ r.2} :=
      region_le (convex_halfSpace_ge (LinearMap.isLinear (LinearMap.snd ℝ ℝ ℝ)) y) hc
    have hc : ContinuousAt (fun t : ℝ => ((x, y - t) : ℝ × ℝ)) 0 := by fun_prop
    have hnb : ∀ᶠ t in nhds (0 : ℝ), ((x, y - t) : ℝ × ℝ) ∈ region poly := by
      apply hc; simpa using mem_interior_iff_mem_nhds.1 hp
    obtain ⟨e, he, hball⟩ := Metric.eventually_nhds_iff.1 hnb
    have := hsub (hball (y := e / 2) (by rw [Real.dist_eq, sub_zero, abs_of_pos (by linarith)]; linarith))
    simp only [Set.mem_ofPred_eq] at this
    linarith
  obtain ⟨j, hj⟩ : ∃ j, y ≤ (corner poly j).2 := by
    by_contra hc
    push Not at hc
    have hsub : region poly ⊆ {r : ℝ × ℝ | r.2 < y} :=
      region_le (convex_halfSpace_lt (LinearMap.isLinear (LinearMap.snd ℝ ℝ ℝ)) y) hc
    have := hsub (interior_subset hp)
    simp at this
  obtain ⟨r, f, hr, hf, hrf, h1, h2, huniq⟩ := h.two hi hj
  rw [inside_eq x y hne]
  have er := h.strict_inside hp r
  have ef := h.strict_inside hp f
  rw [area2_mean (crosses_ne (.inl h1))] at er
  rw [area2_mean (crosses_ne (.inr h2))] at ef
  have hone : ∃ k, hits x y poly poly.length = {k} := by
    rcases h.sign with rfl | rfl
    · refine ⟨r, Finset.ext fun k => ?_⟩
      simp only [hits, Finset.mem_filter, Finset.mem_range, Finset.mem_singleton]
      constructor
      · rintro ⟨hk, hc, hx⟩
        rcases huniq k hk hc with rfl | rfl
        · rfl
        · exfalso; nlinarith [h2.1, h2.2]
      · rintro rfl
        refine ⟨hr, .inl h1, ?_⟩
        by_contra hc
        nlinarith [h1.1, h1.2]
    · refine ⟨f, Finset.ext fun k => ?_⟩
      simp only [hits, Finset.mem_filter, Finset.mem_range, Finset.mem_singleton]
      constructor
      · rintro ⟨hk, hc, hx⟩
        rcases huniq k hk hc with rfl | rfl
        · exfalso; nlinarith [h1.1, h1.2]
        · rfl
      · rintro rfl
        refine ⟨hf, .inr h2, ?_⟩
        by_contra hc
        nlinarith [h2.1, h2.2]
  obtain ⟨k, hk⟩ := hone
  simp [hk]

/-- **C70** (outside). A point that is neither inside nor on the boundary is found to be outside. -/
theorem C70_outside {poly : List (ℝ × ℝ)} (h : ConvexPolygon poly) {x y : ℝ}
    (hp : (x, y) ∉ region poly) : point_inside_polygon x y poly = some false := by
  obtain ⟨s, h⟩ := round_of h
  have hne : poly ≠ [] := by rintro rfl; have := h.many; simp at this
  rw [inside_eq x y hne]
  by_cases hc : ∃ k < poly.length, Crosses y (corner poly k) (corner poly (k + 1))
  · obtain ⟨i, j, hi, hj⟩ : ∃ i j, (corner poly i).2 < y ∧ y ≤ (corner poly j).2 := by
      obtain ⟨k, -, hk | hk⟩ := hc
      · exact ⟨k, k + 1, hk⟩
      · exact ⟨k + 1, k, hk⟩
    obtain ⟨r, f, hr, hf, hrf, h1, h2, huniq⟩ := h.two hi hj
    have m1 := cross_mem hne (.inl h1 : Crosses y (corner poly r) (corner poly (r + 1)))
    have m2 := cross_mem hne (.inr h2 : Crosses y (corner poly f) (corner poly (f + 1)))
    have both : x ≤ xAt y (corner poly r) (corner poly (r + 1)) ↔ x ≤ xAt y (corner poly f) (corner poly (f + 1)) := by
      constructor
      · intro hx; by_contra hc; exact hp (between_mem m2 m1 (not_le.1 hc) hx)
      · intro hx; by_contra hc; exact hp (between_mem m1 m2 (not_le.1 hc) hx)
    by_cases hx : x ≤ xAt y (corner poly r) (corner poly (r + 1))
    · have : hits x y poly poly.length = {r, f} := by
        ext k
        simp only [hits, Finset.mem_filter, Finset.mem_range, Finset.mem_insert, Finset.mem_singleton]
        constructor
        · rintro ⟨hk, hc, -⟩
          exact huniq k hk hc
        · rintro (rfl | rfl)
          · exact ⟨hr, .inl h1, hx⟩
          · exact ⟨hf, .inr h2, both.1 hx⟩
      rw [this, Finset.card_pair hrf]
      simp
    · have : hits x y poly poly.length = ∅ := by
        ext k
        simp only [hits, Finset.mem_filter, Finset.mem_range, Finset.notMem_empty, iff_false]
        rintro ⟨hk, hc, hkx⟩
        rcases huniq k hk hc with rfl | rfl
        · exact hx hkx
        · exact hx (both.2 hkx)
      simp [this]
  · have : hits x y poly poly.length = ∅ := by
      ext k
      simp only [hits, Finset.mem_filter, Finset.mem_range, Finset.notMem_empty, iff_false]
      rintro ⟨hk, hk', -⟩
      exact hc ⟨k, hk, hk'⟩
    simp [this]

/-- **C70** (error branch). Without corners there is no answer, only an exception. -/
theorem no_corners (x y : ℝ) : point_inside_polygon x y [] = none := rfl

/-! A square passed anticlockwise and a triangle passed clockwise. -/

/-- The unit square. -/
def unitSquare : List (ℝ × ℝ) := [(0, 0), (1, 0), (1, 1), (0, 1)]

theorem unitSquare_convex : ConvexPolygon unitSquare := by
  refine ⟨by simp [unitSquare], 1, .inl rfl, ?_⟩
  intro i k p q r hp hq hr h1 h2
  have hi : i < 4 := by
    by_contra hc
    rw [List.getElem?_eq_none (by simp [unitSquare]; omega)] at hp; cases hp
  have hk : k < 4 := by
    by_contra hc
    rw [List.getElem?_eq_none (by simp [unitSquare]; omega)] at hr; cases hr
  interval_cases i <;> interval_cases k <;> simp_all [unitSquare] <;>
    (obtain rfl := hp; obtain rfl := hq; obtain rfl := hr; norm_num [area2])

theorem unitSquare_region {x y : ℝ} (hx : 0 ≤ x ∧ x ≤ 1) (hy : 0 ≤ y ∧ y ≤ 1) : (x, y) ∈ region unitSquare := by
  have hne : unitSquare ≠ [] := by simp [unitSquare]
  have c : ∀ p ∈ unitSquare, p ∈ region unitSquare := fun p hp => subset_convexHull ℝ _ hp
  have e1 := mean_mem (c (0, 0) (by simp [unitSquare])) (c (1, 0) (by simp [unitSquare])) (a := 1 - x) (b := x)
    (by linarith [hx.2]) hx.1 (by ring)
  have e2 := mean_mem (c (0, 1) (by simp [unitSquare])) (c (1, 1) (by simp [unitSquare])) (a := 1 - x) (b := x)
    (by linarith [hx.2]) hx.1 (by ring)
  have e3 := mean_mem e1 e2 (a := 1 - y) (b := y) (by linarith [hy.2]) hy.1 (by ring)
  have e4 : (1 - y) * ((1 - x) * 0 + x * 1) + y * ((1 - x) * 0 + x * 1) = x := by ring
  have e5 : (1 - y) * ((1 - x) * 0 + x * 0) + y * ((1 - x) * 1 + x * 1) = y := by ring
  simpa only [e4, e5] using e3

theorem unitSquare_interior {x y : ℝ} (hx : 0 < x ∧ x < 1) (hy : 0 < y ∧ y < 1) :
    (x, y) ∈ interior (region unitSquare) := by
  refine mem_interior.2 ⟨Set.Ioo 0 1 ×ˢ Set.Ioo 0 1, ?_, isOpen_Ioo.prod isOpen_Ioo, hx, hy⟩
  rintro ⟨u, v⟩ ⟨hu, hv⟩
  exact unitSquare_region ⟨hu.1.le, hu.2.le⟩ ⟨hv.1.le, hv.2.le⟩

example : point_inside_polygon (1 / 2) (3 / 4) unitSquare = some true :=
  C70_inside unitSquare_convex (unitSquare_interior (by norm_num) (by norm_num))

example : point_inside_polygon (3 / 2) (3 / 4) unitSquare = some false := by
  refine C70_outside unitSquare_convex fun h => ?_
  have : region unitSquare ⊆ {r : ℝ × ℝ | r.1 ≤ 1} :=
    convexHull_min (by intro p hp; simp [unitSquare] at hp; rcases hp with rfl | rfl | rfl | rfl <;> simp)
      (convex_halfSpace_le (LinearMap.isLinear (LinearMap.fst ℝ ℝ ℝ)) 1)
  have := this h
  norm_num at this

/-- A triangle listed clockwise is a convex polygon too. -/
example : ConvexPolygon [(0, 0), (0, 1), (1, 0)] := by
  refine ⟨by simp, -1, .inr rfl, ?_⟩
  intro i k p q r hp hq hr h1 h2
  have hi : i < 3 := by
    by_contra hc
    rw [List.getElem?_eq_none (by simp; omega)] at hp; cases hp
  have hk : k < 3 := by
    by_contra hc
    rw [List.getElem?_eq_none (by simp; omega)] at hr; cases hr
  interval_cases i <;> interval_cases k <;> simp_all <;>
    (obtain rfl := hp; obtain rfl := hq; obtain rfl := hr; norm_num [area2])

open Classical in
/-- **C70** (on the boundary there is no rule to rely on). The middle of the right side of a square counts as
inside, the middle of its left side as outside. -/
theorem C70_boundary : point_inside_polygon 1 (1 / 2) unitSquare = some true ∧
    point_inside_polygon 0 (1 / 2) unitSquare = some false := by
  have hne : unitSquare ≠ [] := by simp [unitSquare]
  have hc : ∀ i, corner unitSquare i = unitSquare.getD (i % 4) 0 := fun i => rfl
  constructor
  · rw [inside_eq _ _ hne]
    have : hits 1 (1 / 2) unitSquare unitSquare.length = {1} := by
      ext k
      simp only [hits, Finset.mem_filter, Finset.mem_range, Finset.mem_singleton, hc,
        show unitSquare.length = 4 from rfl]
      constructor
      · rintro ⟨hk, h⟩
        interval_cases k <;> (simp [unitSquare, Hit, Crosses, xAt] at h ⊢) <;> norm_num at h
      · rintro rfl
        norm_num [unitSquare, Hit, Crosses, xAt]
    rw [this]; simp
  · rw [inside_eq _ _ hne]
    have : hits 0 (1 / 2) unitSquare unitSquare.length = {1, 3} := by
      ext k
      simp only [hits, Finset.mem_filter, Finset.mem_range, Finset.mem_insert, Finset.mem_singleton, hc,
        show unitSquare.length = 4 from rfl]
      constructor
      · rintro ⟨hk, h⟩
        interval_cases k <;> (simp [unitSquare, Hit, Crosses, xAt] at h ⊢) <;> norm_num at h
      · rintro (rfl | rfl) <;> norm_num [unitSquare, Hit, Crosses, xAt]
    rw [this, Finset.card_pair (by norm_num)]
    simp

/-! ## C70: beads inside a quadrilateral -/

theorem proposeInside_ok {w : ℕ → ℝ} {Q : QuadArgs} {bl tr : Vec3} {beads : List Vec3} {a : ℝ} {fuel k : ℕ}
    {r : Vec3 × ℕ} (h : proposeInside w Q bl tr beads a fuel k = .ok r) :
    (∃ k, r.1 = random_point_in_box w k bl tr) ∧ Q.rejected beads a r.1 = .ok false := by
  induction fuel generalizing k with
  | zero => cases h
  | succ fuel ih =>
    rw [proposeInside] at h
    obtain ⟨fail, h1, h2⟩ := bind_ok.1 h
    cases fail with
    | true => exact ih h2
    | false =>
      obtain rfl := ok_pure h2
      exact ⟨⟨k, rfl⟩, h1⟩

theorem rejected_false {Q : QuadArgs} {beads : List Vec3} {a : ℝ} {p : Vec3}
    (h : Q.rejected beads a p = .ok false) :
    point_inside_polygon (p 0) (p 2) Q.quad = some true ∧ (∀ q ∈ Q.spherePos, Apart p a q Q.sphereSize) ∧
    ∀ (j : ℕ) (q : Vec3), beads[j]? = some q → Apart p a q (Q.sizes.getD (j / 2) 0) := by
  unfold QuadArgs.rejected at h
  cases hp : point_inside_polygon (p 0) (p 2) Q.quad with
  | none => rw [hp] at h; cases h
  | some b =>
    rw [hp] at h
    cases b with
    | false => cases h
    | true =>
      simp only at h
      split_ifs at h with hs
      · cases h
      · have h2 := ok_pure h
        refine ⟨rfl, fun q hq => ?_, fun j q hq => ?_⟩
        · rw [← overlaps_false]
          by_contra hc
          exact hs (List.any_eq_true.2 ⟨q, hq, by simpa using hc⟩)
        · rw [← overlaps_false]
          have := List.any_eq_false.1 h2 (q, j) (List.mem_zipIdx_iff_getElem?.2 hq)
          simpa using this

/-- What is known of the beads already there. -/
structure InsideOk (Q : QuadArgs) (beads : List Vec3) : Prop where
  flat : ∀ p ∈ beads, p 1 = 0
  inside : ∀ p ∈ beads, point_inside_polygon (p 0) (p 2) Q.quad = some true
  clear : ∀ (i : ℕ) (p : Vec3), beads[i]? = some p → ∀ q ∈ Q.spherePos,
    Apart p (Q.sizes.getD (i / 2) 0) q Q.sphereSize
  apart : ∀ (i j : ℕ) (p q : Vec3), j < i → beads[i]? = some p → beads[j]? = some q →
    Apart p (Q.sizes.getD (i / 2) 0) q (Q.sizes.getD (j / 2) 0)

theorem placeInside_ok {fuel : ℕ} {w : ℕ → ℝ} {Q : QuadArgs} {bl tr : Vec3} (h1 : bl 1 = 0) (h2 : tr 1 = 0)
    {m : ℕ} {beads : List Vec3} {k : ℕ} {r : List Vec3 × ℕ} (hb : InsideOk Q beads)
    (h : placeInside fuel w Q bl tr m beads k = .ok r) : r.1.length = beads.length + m ∧ InsideOk Q r.1 := by
  induction m generalizing beads k with
  | zero =>
    obtain rfl := ok_pure h
    exact ⟨rfl, hb⟩
  | succ m ih =>
    rw [placeInside] at h
    obtain ⟨⟨p, k'⟩, e1, e2⟩ := bind_ok.1 h
    obtain ⟨⟨k0, hk⟩, hr⟩ := proposeInside_ok e1
    obtain ⟨r1, r2, r3⟩ := rejected_false hr
    have := ih (beads := beads ++ [p]) (k := k') ?_ e2
    · refine ⟨?_, this.2⟩
      rw [this.1]; simp; omega
    · have hp1 : p 1 = 0 := by
        have : p = random_point_in_box w k0 bl tr := hk
        rw [this]; simp [random_point_in_box, h1, h2]
      have split : ∀ (i : ℕ) (q : Vec3), (beads ++ [p])[i]? = some q →
          beads[i]? = some q ∧ i < beads.length ∨ i = beads.length ∧ q = p := by
        intro i q hq
        rcases lt_trichotomy i beads.length with hi | hi | hi
        · rw [List.getElem?_append_left hi] at hq
          exact .inl ⟨hq, hi⟩
        · subst hi
          simp at hq
          exact .inr ⟨rfl, hq.symm⟩
        · rw [List.getElem?_eq_none (by simp; omega)] at hq; cases hq
      refine ⟨?_, ?_, ?_, ?_⟩
      · intro q hq
        rcases List.mem_append.1 hq with hq | hq
        · exact hb.flat q hq
        · rw [List.mem_singleton.1 hq]; exact hp1
      · intro q hq
        rcases List.mem_append.1 hq with hq | hq
        · exact hb.inside q hq
        · rw [List.mem_singleton.1 hq]; exact r1
      · intro i q hq s hs
        rcases split i q hq with ⟨hq, -⟩ | ⟨rfl, rfl⟩
        · exact hb.clear i q hq s hs
        · exact r2 s hs
      · intro i j q s hji hq hs
        rcases split i q hq with ⟨hq, hi⟩ | ⟨rfl, rfl⟩
        · rcases split j s hs with ⟨hs, -⟩ | ⟨rfl, -⟩
          · exact hb.apart i j q s hji hq hs
          · omega
        · rcases split j s hs with ⟨hs, -⟩ | ⟨rfl, -⟩
          · exact r3 j s hs
          · omega

/-- **C70** (beads in a quadrilateral). Whatever numbers are drawn, the beads that the loop places are two for each
size, in the plane and within the quadrilateral, overlapping neither each other (the two of one dumbbell included)
nor a sphere. -/
theorem C70_beads {fuel k k' : ℕ} {w : ℕ → ℝ} {Q : QuadArgs} {beads : List Vec3} (hQ : ConvexPolygon Q.quad)
    (h : beadsInside fuel w k Q = .ok (beads, k')) :
    beads.length = 2 * Q.sizes.length ∧ (∀ p ∈ beads, p 1 = 0 ∧ (p 0, p 2) ∈ region Q.quad) ∧
    (∀ (i : ℕ) (p : Vec3) (a : ℝ), beads[i]? = some p → Q.sizes[i / 2]? = some a →
      ∀ q ∈ Q.spherePos, Apart p a q Q.sphereSize) ∧
    ∀ (i j : ℕ) (p q : Vec3) (a b : ℝ), i ≠ j → beads[i]? = some p → Q.sizes[i / 2]? = some a →
      beads[j]? = some q → Q.sizes[j / 2]? = some b → Apart p a q b := by
  unfold beadsInside at h
  obtain ⟨x0, -, h⟩ := bind_ok.1 h
  obtain ⟨z0, -, h⟩ := bind_ok.1 h
  obtain ⟨x1, -, h⟩ := bind_ok.1 h
  obtain ⟨z1, -, h⟩ := bind_ok.1 h
  obtain ⟨e1, e2⟩ := placeInside_ok rfl rfl ⟨by simp, by simp, by simp, by simp⟩ h
  have size : ∀ (i : ℕ) (a : ℝ), Q.sizes[i]? = some a → Q.sizes.getD i 0 = a := by
    intro i a ha; simp [List.getD_eq_getElem?_getD, ha]
  refine ⟨by simpa using e1, fun p hp => ⟨e2.flat p hp, ?_⟩, ?_, ?_⟩
  · by_contra hc
    have := e2.inside p hp
    rw [C70_outside hQ hc] at this
    cases this
  · intro i p a hp ha q hq
    rw [← size _ _ ha]; exact e2.clear i p hp q hq
  · intro i j p q a b hij hp ha hq hb
    rw [← size _ _ ha, ← size _ _ hb]
    rcases Nat.lt_or_gt_of_ne hij with hl | hl
    · exact apart_comm.1 (e2.apart j i q p hl hq hp)
    · exact e2.apart i j p q hl hp hq

/-- One dumbbell with beads of radius 1/10 in the unit square. -/
noncomputable def squareArgs : QuadArgs := ⟨unitSquare, [1 / 10], [], 1⟩

/-- The draws 1/4 (three times) and 3/4. -/
noncomputable def squareDraws : ℕ → ℝ := fun k => if k < 3 then 1 / 4 else 3 / 4

example : beadsInside 1 squareDraws 0 squareArgs = .ok ([![1 / 4, 0, 1 / 4], ![3 / 4, 0, 3 / 4]], 6) := by
  have b0 : columnMin (squareArgs.quad.map Prod.fst) = .ok 0 := by
    simp [squareArgs, unitSquare, columnMin]; rfl
  have b1 : columnMin (squareArgs.quad.map Prod.snd) = .ok 0 := by
    simp [squareArgs, unitSquare, columnMin]; rfl
  have b2 : columnMax (squareArgs.quad.map Prod.fst) = .ok 1 := by
    simp [squareArgs, unitSquare, columnMax]; rfl
  have b3 : columnMax (squareArgs.quad.map Prod.snd) = .ok 1 := by
    simp [squareArgs, unitSquare, columnMax]; rfl
  have p1 : random_point_in_box squareDraws 0 ![0, 0, 0] ![1, 0, 1] = ![1 / 4, 0, 1 / 4] := by
    funext c; fin_cases c <;> simp [random_point_in_box, squareDraws]
  have p2 : random_point_in_box squareDraws 3 ![0, 0, 0] ![1, 0, 1] = ![3 / 4, 0, 3 / 4] := by
    funext c; fin_cases c <;> simp [random_point_in_box, squareDraws]
  have i1 : point_inside_polygon (1 / 4) (1 / 4) unitSquare = some true :=
    C70_inside unitSquare_convex (unitSquare_interior (by norm_num) (by norm_num))
  have i2 : point_inside_polygon (3 / 4) (3 / 4) unitSquare = some true :=
    C70_inside unitSquare_convex (unitSquare_interior (by norm_num) (by norm_num))
  have r1 : squareArgs.rejected [] (1 / 10) ![1 / 4, 0, 1 / 4] = .ok false := by
    show (match point_inside_polygon (1 / 4) (1 / 4) unitSquare with
      | none => _ | some false => _ | some true => _) = _
    rw [i1]; rfl
  have ov : overlaps ![3 / 4, 0, 3 / 4] ![1 / 4, 0, 1 / 4] (1 / 10) (1 / 10) = false := by
    rw [overlaps_false, Apart, gap, len]
    apply Real.le_sqrt_of_sq_le
    have e1 : (![3 / 4, 0, 3 / 4] : Vec3) 2 = 3 / 4 := rfl
    have e2 : (![1 / 4, 0, 1 / 4] : Vec3) 2 = 1 / 4 := rfl
    norm_num [Fin.sum_univ_three, e1, e2]
  have r2 : squareArgs.rejected [![1 / 4, 0, 1 / 4]] (1 / 10) ![3 / 4, 0, 3 / 4] = .ok false := by
    show (match point_inside_polygon (3 / 4) (3 / 4) unitSquare with
      | none => _ | some false => _ | some true => _) = _
    rw [i2]
    simp [squareArgs, List.zipIdx]
    exact congrArg _ (by simpa using ov)
  unfold beadsInside
  rw [b0, b1, b2, b3]
  show placeInside 1 squareDraws squareArgs ![0, 0, 0] ![1, 0, 1] 2 [] 0 = _
  rw [placeInside]
  have q1 : proposeInside squareDraws squareArgs ![0, 0, 0] ![1, 0, 1] [] (squareArgs.sizes.getD 0 0) 1 0
      = .ok (![1 / 4, 0, 1 / 4], 3) := by
    rw [proposeInside]
    simp only [p1]
    show (squareArgs.rejected [] (1 / 10) ![1 / 4, 0, 1 / 4] >>= _) = _
    rw [r1]; rfl
  have q2 : proposeInside squareDraws squareArgs ![0, 0, 0] ![1, 0, 1] [![1 / 4, 0, 1 / 4]]
      (squareArgs.sizes.getD 0 0) 1 3 = .ok (![3 / 4, 0, 3 / 4], 6) := by
    rw [proposeInside]
    simp only [p2]
    show (squareArgs.rejected [![1 / 4, 0, 1 / 4]] (1 / 10) ![3 / 4, 0, 3 / 4] >>= _) = _
    rw [r2]; rfl
  refine bind_ok.2 ⟨_, q1, ?_⟩
  refine bind_ok.2 ⟨_, q2, rfl⟩

/-- **C70** (defect). The function itself never returns: with enough rounds it ends in an exception. -/
theorem C70_never_returns (fuel : ℕ) (w : ℕ → ℝ) (k : ℕ) (Q : QuadArgs) :
    ∀ r, randomise_beads_inside_quadrilateral fuel w k Q ≠ .ok r := by
  intro r h
  obtain ⟨_, -, h2⟩ := bind_ok.1 h
  cases h2

end SD
