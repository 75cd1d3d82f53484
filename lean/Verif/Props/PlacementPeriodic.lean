import Verif.Lemmas.PlacementPeriodic
import Mathlib.Algebra.Order.Floor.Ring

/-!
# Properties: random placement of dumbbells in a periodic box
-/

set_option autoImplicit false

namespace SD

open Spec

/-! ## C71 -/

theorem coord_le_gap (p q : Fin 3 → ℝ) (c : Fin 3) : |p c - q c| ≤ gap p q := by
  unfold gap len
  refine Real.abs_le_sqrt ?_
  exact Finset.single_le_sum (f := fun c => (p c - q c) ^ 2) (fun c _ => sq_nonneg _) (Finset.mem_univ c)

theorem apart_of_coord {p q : Fin 3 → ℝ} {a b : ℝ} (c : Fin 3) (h : a + b ≤ |p c - q c|) : Apart p a q b :=
  h.trans (coord_le_gap p q c)

/-- Beyond the neighbouring images nothing can be too close. -/
theorem images_apart {A : DumbArgs} {P Q : Vec3} {a b : ℝ} {B : Fin 3 → ℝ}
    (hB : ∀ c, |P c - Q c| ≤ B c) (h0 : a + b + B 0 ≤ 2 * (A.tr 0 - A.bl 0)) (h2 : a + b + B 2 ≤ 2 * (A.tr 2 - A.bl 2))
    (h1 : a + b + B 1 ≤ 1000000) (hx : 0 < A.tr 0 - A.bl 0) (hz : 0 < A.tr 2 - A.bl 2)
    (h : ∀ s ∈ A.shifts, Apart P a (Q + s) b) (M : Fin 3 → ℤ) : Apart P a (imageOf A.modPeriods M Q) b := by
  have m0 : A.modPeriods 0 = A.tr 0 - A.bl 0 := rfl
  have m1 : A.modPeriods 1 = 1000000 := rfl
  have m2 : A.modPeriods 2 = A.tr 2 - A.bl 2 := rfl
  have far : ∀ (c : Fin 3) (n : ℕ), 0 < A.modPeriods c → a + b + B c ≤ n * A.modPeriods c → (n : ℤ) ≤ |M c| →
      Apart P a (imageOf A.modPeriods M Q) b := by
    intro c n hp hn hM
    refine apart_of_coord c ?_
    have e1 : (n : ℝ) ≤ |(M c : ℝ)| := by exact_mod_cast hM
    have e2 : (n : ℝ) * A.modPeriods c ≤ |(M c : ℝ) * A.modPeriods c| := by
      rw [abs_mul, abs_of_pos hp]; exact mul_le_mul_of_nonneg_right e1 hp.le
    have e3 : |(M c : ℝ) * A.modPeriods c| ≤ |P c - Q c| + |P c - imageOf A.modPeriods M Q c| := by
      have : (M c : ℝ) * A.modPeriods c = (P c - Q c) - (P c - imageOf A.modPeriods M Q c) := by
        simp only [imageOf]; ring
      rw [this]; exact abs_sub _ _
    linarith [hB c]
  by_cases c1 : M 1 = 0
  · by_cases c0 : 2 ≤ |M 0|
    · exact far 0 2 (by rw [m0]; exact hx) (by rw [m0]; exact_mod_cast h0) (by exact_mod_cast c0)
    · by_cases c2 : 2 ≤ |M 2|
      · exact far 2 2 (by rw [m2]; exact hz) (by rw [m2]; exact_mod_cast h2) (by exact_mod_cast c2)
      · have e : imageOf A.modPeriods M Q
            = Q + ![(M 0 : ℝ) * (A.tr 0 - A.bl 0), 0, (M 2 : ℝ) * (A.tr 2 - A.bl 2)] := by
          funext c
          fin_cases c
          · simp [imageOf, m0]
          · simp [imageOf, c1]
          · show Q 2 + (M 2 : ℝ) * A.modPeriods 2 = Q 2 + (M 2 : ℝ) * (A.tr 2 - A.bl 2)
            rw [m2]
        rw [e]
        apply h
        have small : ∀ z : ℤ, ¬ 2 ≤ |z| → (z : ℝ) ∈ ([-1, 0, 1] : List ℝ) := by
          intro z hz
          have : z = -1 ∨ z = 0 ∨ z = 1 := by
            have := abs_lt.1 (not_le.1 hz); omega
          rcases this with rfl | rfl | rfl <;> simp
        unfold DumbArgs.shifts
        exact List.mem_flatMap.2 ⟨_, small _ c0, List.mem_map.2 ⟨_, small _ c2, rfl⟩⟩
  · refine far 1 1 (by rw [m1]; norm_num) (by rw [m1, Nat.cast_one, one_mul]; exact h1) ?_
    have := Int.one_le_abs c1
    exact_mod_cast this

/-- The beads of the result are those accepted, moved by whole periods. -/
theorem bead_moved (A : DumbArgs) (b1 b2 : Vec3) : ∃ K : Fin 3 → ℤ, ∀ e,
    beadOf (A.wrapCentre fun c => 0.5 * (b1 c + b2 c), fun c => b2 c - b1 c) e
      = imageOf A.modPeriods K (if e then b2 else b1) := by
  refine ⟨fun c => -⌊(0.5 * (b1 c + b2 c) - A.bl c) / A.modPeriods c⌋, fun e => ?_⟩
  funext c
  simp only [beadOf, imageOf, DumbArgs.wrapCentre, npMod]
  cases e
  · simp only [Bool.false_eq_true, if_false]; push_cast; ring
  · simp only [if_true]; push_cast; ring

theorem apart_images {D : Fin 3 → ℝ} {P Q : Vec3} {a b : ℝ} (h : ∀ M, Apart P a (imageOf D M Q) b)
    (K K' M : Fin 3 → ℤ) : Apart (imageOf D K P) a (imageOf D M (imageOf D K' Q)) b := by
  have := h (M + K' - K)
  unfold Apart gap at this ⊢
  convert this using 3 with c
  simp only [imageOf, Pi.add_apply, Pi.sub_apply]
  push_cast
  ring

theorem bead_box {w : ℕ → ℝ} (hw : Stream w) {A : DumbArgs} (hbox : ∀ c, A.bl c ≤ A.tr c) {beads : List Vec3}
    {i : ℕ} {a : ℝ} {b1 b2 : Vec3} (h : GoodPairP w A beads i a b1 b2) (e : Bool) (c : Fin 3) :
    A.bl c - |A.dx| ≤ (if e then b2 else b1) c ∧ (if e then b2 else b1) c ≤ A.tr c + |A.dx| := by
  obtain ⟨k0, hb1⟩ := h.box1
  have h1 : InBox A.bl A.tr b1 := by rw [hb1]; exact inBox_random hw k0 hbox
  have h0 := abs_nonneg A.dx
  cases e
  · simp only [Bool.false_eq_true, if_false]
    exact ⟨by linarith [(h1 c).1], by linarith [(h1 c).2]⟩
  · simp only [if_true]
    obtain ⟨th, ph, hb2, -⟩ := h.dir
    have := coord_le_gap b2 b1 c
    rw [hb2, bead2_gap, ← hb2] at this
    have := abs_le.1 this
    exact ⟨by linarith [(h1 c).1], by linarith [(h1 c).2]⟩

/-- What is known of a finished placement. -/
theorem periodic_pairs {fuel k k' : ℕ} {w : ℕ → ℝ} {A : DumbArgs} {ds : List (Vec3 × Vec3)}
    (h : randomise_dumbbells_periodic fuel w k A = .ok (ds, k')) :
    ∃ new : List (Vec3 × Vec3), new.length = A.sizes.length ∧
      ds = new.map (fun d => (A.wrapCentre fun c => 0.5 * (d.1 c + d.2 c), fun c => d.2 c - d.1 c)) ∧
      ∀ m < A.sizes.length, ∃ d a, new[m]? = some d ∧ A.sizes[m]? = some a ∧
        GoodPairP w A (beadList new) m a d.1 d.2 := by
  obtain ⟨⟨out, k1⟩, h1, h2⟩ := bind_ok.1 h
  obtain ⟨-, -, h3⟩ := bind_ok.1 h2
  obtain ⟨new, e1, e2, e3⟩ := placePeriodic_ok h1
  have : out = ds := congrArg Prod.fst (ok_pure h3)
  refine ⟨new, e1, by rw [← this, e2]; simp, fun m hm => ?_⟩
  obtain ⟨d, a, q1, q2, q3⟩ := e3 m hm
  exact ⟨d, a, q1, q2, by simpa using q3⟩

theorem npMod_range {x m : ℝ} (hm : 0 < m) : 0 ≤ npMod x m ∧ npMod x m < m := by
  unfold npMod
  have h1 := Int.floor_le (x / m)
  have h2 := Int.lt_floor_add_one (x / m)
  rw [le_div_iff₀ hm] at h1
  rw [div_lt_iff₀ hm] at h2
  exact ⟨by linarith, by linarith⟩

/-- **C71** (shape). A placement that finishes gives one dumbbell for each requested size, with the requested
separation and direction, and with its centre in the box as far as `x` and `z` are concerned. -/
theorem C71_shape {fuel k k' : ℕ} {w : ℕ → ℝ} {A : DumbArgs} {ds : List (Vec3 × Vec3)}
    (hx : A.bl 0 < A.tr 0) (hz : A.bl 2 < A.tr 2)
    (h : randomise_dumbbells_periodic fuel w k A = .ok (ds, k')) :
    ds.length = A.sizes.length ∧ ∀ d ∈ ds,
      (len d.2 = |A.dx| ∧ (∀ t, A.theta = some t → d.2 2 = A.dx * Real.cos t) ∧
        ∀ p, A.phi = some p → d.2 0 * Real.sin p = d.2 1 * Real.cos p) ∧
      (A.bl 0 ≤ d.1 0 ∧ d.1 0 < A.tr 0) ∧ A.bl 2 ≤ d.1 2 ∧ d.1 2 < A.tr 2 := by
  obtain ⟨new, e1, rfl, e3⟩ := periodic_pairs h
  refine ⟨by simp [e1], fun d hd => ?_⟩
  obtain ⟨b, hb, rfl⟩ := List.mem_map.1 hd
  obtain ⟨m, hm, hbm⟩ := List.mem_iff_getElem.1 hb
  obtain ⟨d, a, q1, -, q3⟩ := e3 m (by omega)
  have : d = b := by
    rw [List.getElem?_eq_getElem hm] at q1
    exact (Option.some.inj q1).symm.trans hbm
  subst this
  obtain ⟨th, ph, hb2, ht, hp⟩ := q3.dir
  refine ⟨⟨?_, fun t h => ?_, fun p h => ?_⟩, ?_, ?_⟩
  · have := bead2_gap d.1 A.dx th ph
    rw [← hb2] at this
    exact this
  · rw [← ht t h]
    show d.2 2 - d.1 2 = _
    rw [hb2]; simp [bead2At]
  · rw [← hp p h]
    show (d.2 0 - d.1 0) * _ = (d.2 1 - d.1 1) * _
    rw [hb2]; simp [bead2At]; ring
  · have := npMod_range (x := 0.5 * (d.1 0 + d.2 0) - A.bl 0) (m := A.tr 0 - A.bl 0) (by linarith)
    show A.bl 0 ≤ npMod _ (A.tr 0 - A.bl 0) + A.bl 0 ∧ npMod _ (A.tr 0 - A.bl 0) + A.bl 0 < A.tr 0
    exact ⟨by linarith [this.1], by linarith [this.2]⟩
  · have := npMod_range (x := 0.5 * (d.1 2 + d.2 2) - A.bl 2) (m := A.tr 2 - A.bl 2) (by linarith)
    show A.bl 2 ≤ npMod _ (A.tr 2 - A.bl 2) + A.bl 2 ∧ npMod _ (A.tr 2 - A.bl 2) + A.bl 2 < A.tr 2
    exact ⟨by linarith [this.1], by linarith [this.2]⟩

/-- The dumbbell of the result and the beads it comes from. -/
theorem periodic_get {fuel k k' : ℕ} {w : ℕ → ℝ} {A : DumbArgs} {ds : List (Vec3 × Vec3)}
    (h : randomise_dumbbells_periodic fuel w k A = .ok (ds, k')) :
    ∃ new : List (Vec3 × Vec3), ∀ (i : ℕ) d a, ds[i]? = some d → A.sizes[i]? = some a →
      ∃ b : Vec3 × Vec3, new[i]? = some b ∧ GoodPairP w A (beadList new) i a b.1 b.2 ∧
        ∃ K : Fin 3 → ℤ, ∀ e, beadOf d e = imageOf A.modPeriods K (if e then b.2 else b.1) := by
  obtain ⟨new, e1, rfl, e3⟩ := periodic_pairs h
  refine ⟨new, fun i d a hd ha => ?_⟩
  have hi : i < A.sizes.length := by
    by_contra hc
    rw [List.getElem?_eq_none (by omega)] at ha; cases ha
  obtain ⟨b, a', q1, q2, q3⟩ := e3 i hi
  rw [ha] at q2
  obtain rfl := Option.some.inj q2
  rw [List.getElem?_map, q1] at hd
  obtain rfl := Option.some.inj hd
  exact ⟨b, q1, q3, bead_moved A b.1 b.2⟩

/-- **C71** (no overlaps). If the box is long enough, `2|dx| + a + b ≤ Dx` and likewise for `Dz`, then beads of
different dumbbells do not overlap, in any of the infinitely many periodic images. (The height of the box only has
to be less than the artificial period of a million.) -/
theorem C71_apart {fuel k k' : ℕ} {w : ℕ → ℝ} {A : DumbArgs} {ds : List (Vec3 × Vec3)}
    (hw : Stream w) (hx : A.bl 0 < A.tr 0) (hy : A.bl 1 ≤ A.tr 1) (hz : A.bl 2 < A.tr 2)
    (h : randomise_dumbbells_periodic fuel w k A = .ok (ds, k'))
    {i j : ℕ} {d d' : Vec3 × Vec3} {a b : ℝ} (hij : i ≠ j) (hd : ds[i]? = some d) (ha : A.sizes[i]? = some a)
    (hd' : ds[j]? = some d') (hb : A.sizes[j]? = some b)
    (lx : 2 * |A.dx| + a + b ≤ A.tr 0 - A.bl 0) (lz : 2 * |A.dx| + a + b ≤ A.tr 2 - A.bl 2)
    (ly : A.tr 1 - A.bl 1 + 2 * |A.dx| + a + b ≤ 1000000) (e e' : Bool) (m : Fin 3 → ℤ) :
    Apart (beadOf d e) a (imageOf A.modPeriods m (beadOf d' e')) b := by
  have hbox : ∀ c, A.bl c ≤ A.tr c := by
    intro c; fin_cases c
    · exact hx.le
    · exact hy
    · exact hz.le
  obtain ⟨new, get⟩ := periodic_get h
  have key : ∀ (i j : ℕ) (d d' : Vec3 × Vec3) (a b : ℝ), j < i → ds[i]? = some d → A.sizes[i]? = some a →
      ds[j]? = some d' → A.sizes[j]? = some b →
      2 * |A.dx| + a + b ≤ A.tr 0 - A.bl 0 → 2 * |A.dx| + a + b ≤ A.tr 2 - A.bl 2 →
      A.tr 1 - A.bl 1 + 2 * |A.dx| + a + b ≤ 1000000 → ∀ (e e' : Bool) (m : Fin 3 → ℤ),
      Apart (beadOf d e) a (imageOf A.modPeriods m (beadOf d' e')) b := by
    intro i j d d' a b hji hd ha hd' hb lx lz ly e e' m
    obtain ⟨p, p1, p2, K, p3⟩ := get i d a hd ha
    obtain ⟨q, q1, q2, K', q3⟩ := get j d' b hd' hb
    rw [p3, q3]
    refine apart_images (fun M => ?_) K K' m
    refine images_apart (B := fun c => A.tr c - A.bl c + 2 * |A.dx|) (fun c => ?_) (by linarith) (by linarith)
      (by linarith) (by linarith) (by linarith) (fun s hs => ?_) M
    · have h1 := bead_box hw hbox p2 e c
      have h2 := bead_box hw hbox q2 e' c
      rw [abs_le]
      constructor <;> linarith [h1.1, h1.2, h2.1, h2.2]
    · have hc : ClearOf A (beadList new) i a (if e then p.2 else p.1) s := by
        cases e
        · exact p2.first s hs
        · exact p2.second s hs
      obtain ⟨g1, g2⟩ := beadList_get new j
      rw [q1] at g1 g2
      cases e'
      · obtain ⟨x, y, x1, x2, x3⟩ := hc.beads (2 * j) (by omega)
        rw [g1] at x1
        rw [show 2 * j / 2 = j by omega, hb] at x2
        obtain rfl := Option.some.inj x1
        obtain rfl := Option.some.inj x2
        exact x3
      · obtain ⟨x, y, x1, x2, x3⟩ := hc.beads (2 * j + 1) (by omega)
        rw [g2] at x1
        rw [show (2 * j + 1) / 2 = j by omega, hb] at x2
        obtain rfl := Option.some.inj x1
        obtain rfl := Option.some.inj x2
        exact x3
  rcases Nat.lt_or_gt_of_ne hij with hl | hl
  · have := key j i d' d b a hl hd' hb hd ha (by linarith) (by linarith) (by linarith) e' e (-m)
    rw [apart_comm] at this
    unfold Apart gap at this ⊢
    have e1 : (fun c => beadOf d e c - imageOf A.modPeriods m (beadOf d' e') c)
        = fun c => imageOf A.modPeriods (-m) (beadOf d e) c - beadOf d' e' c := by
      funext c; simp only [imageOf, Pi.neg_apply]; push_cast; ring
    rw [e1]; exact this
  · exact key i j d d' a b hl hd ha hd' hb lx lz ly e e' m

/-- **C71** (spheres). Beads overlap no image of a sphere whose centre is in the box. -/
theorem C71_spheres {fuel k k' : ℕ} {w : ℕ → ℝ} {A : DumbArgs} {ds : List (Vec3 × Vec3)}
    (hw : Stream w) (hx : A.bl 0 < A.tr 0) (hy : A.bl 1 ≤ A.tr 1) (hz : A.bl 2 < A.tr 2)
    (h : randomise_dumbbells_periodic fuel w k A = .ok (ds, k'))
    {i j : ℕ} {d : Vec3 × Vec3} {q : Vec3} {a b : ℝ} (hd : ds[i]? = some d) (ha : A.sizes[i]? = some a)
    (hq : A.spherePos[j]? = some q) (hb : A.sphereSizes[j]? = some b) (hin : InBox A.bl A.tr q)
    (lx : |A.dx| + a + b ≤ A.tr 0 - A.bl 0) (lz : |A.dx| + a + b ≤ A.tr 2 - A.bl 2)
    (ly : A.tr 1 - A.bl 1 + |A.dx| + a + b ≤ 1000000) (e : Bool) (m : Fin 3 → ℤ) :
    Apart (beadOf d e) a (imageOf A.modPeriods m q) b := by
  have hbox : ∀ c, A.bl c ≤ A.tr c := by
    intro c; fin_cases c
    · exact hx.le
    · exact hy
    · exact hz.le
  obtain ⟨new, get⟩ := periodic_get h
  obtain ⟨p, p1, p2, K, p3⟩ := get i d a hd ha
  have e0 : imageOf A.modPeriods 0 q = q := by funext c; simp [imageOf]
  rw [p3, ← e0]
  refine apart_images (fun M => ?_) K 0 m
  refine images_apart (B := fun c => A.tr c - A.bl c + |A.dx|) (fun c => ?_) (by linarith) (by linarith)
    (by linarith) (by linarith) (by linarith) (fun s hs => ?_) M
  · have h1 := bead_box hw hbox p2 e c
    have h2 := hin c
    rw [abs_le]
    constructor <;> linarith [h1.1, h1.2, h2.1, h2.2]
  · have hc : ClearOf A (beadList new) i a (if e then p.2 else p.1) s := by
      cases e
      · exact p2.first s hs
      · exact p2.second s hs
    have hj : j < A.sphereSizes.length := by
      by_contra hc
      rw [List.getElem?_eq_none (by omega)] at hb; cases hb
    obtain ⟨x, y, x1, x2, x3⟩ := hc.spheres j hj
    rw [hq] at x1
    rw [hb] at x2
    obtain rfl := Option.some.inj x1
    obtain rfl := Option.some.inj x2
    exact x3

/-- **C71** (a hundred tries are one). If a second bead is accepted, it is the first one proposed: the count of
overlaps is not set back, so that after one failure the other ninety-nine cannot succeed. -/
theorem C71_one_try {w : ℕ → ℝ} {A : DumbArgs} {beads : List Vec3} {i : ℕ} {a : ℝ} {b1 b2 : Vec3} {k k' : ℕ}
    (h : tryBead2Periodic w A beads i a b1 100 0 k = .ok (some b2, k')) :
    tryBead2Periodic w A beads i a b1 1 0 k = .ok (some b2, k') := by
  obtain ⟨h1, h2, h3⟩ := tryPeriodic_first h
  rw [tryBead2Periodic]
  generalize drawAngles w A.theta A.phi k = x at h2 h3 ⊢
  obtain ⟨th, ph, k1⟩ := x
  dsimp only at h2 h3 ⊢
  rw [← h2, h3, countImages_clear h1]
  rfl

theorem tryBead2_stuck {w : ℕ → ℝ} {A : DumbArgs} {beads : List Vec3} {i : ℕ} {a : ℝ} {b1 b2 : Vec3}
    {t c k k' : ℕ} (hc : c ≠ 0) : tryBead2 w A beads i a b1 t c k ≠ .ok (some b2, k') := by
  induction t generalizing c k with
  | zero =>
    intro h
    rw [tryBead2] at h
    exact absurd (congrArg Prod.fst (ok_pure h)) (by simp)
  | succ t ih =>
    intro h
    rw [tryBead2] at h
    generalize drawAngles w A.theta A.phi k = d at h
    obtain ⟨th, ph, k1⟩ := d
    dsimp only at h
    split_ifs at h
    · obtain ⟨c1, h1, h2⟩ := bind_ok.1 h
      obtain ⟨c2, h3, h4⟩ := bind_ok.1 h1
      have e1 := (countClose_ok h3).1
      rw [if_neg (by omega)] at h4
      have e2 := ok_pure h4
      rw [if_neg (by omega)] at h2
      exact ih (by omega) h2
    · exact ih hc h

/-- **C71** (the same in an open box). If the first orientation that keeps the second bead in the box makes it
overlap something, none of the remaining tries succeeds. -/
theorem C71_one_try_open {w : ℕ → ℝ} {A : DumbArgs} {beads : List Vec3} {i : ℕ} {a th ph : ℝ} {b1 b2 : Vec3}
    {t c k k1 k' : ℕ} (hd : drawAngles w A.theta A.phi k = (th, ph, k1))
    (hin : A.inBox (bead2At b1 A.dx th ph) = true)
    (hc : A.countBoth beads i (bead2At b1 A.dx th ph) a 0 = .ok (c + 1)) :
    tryBead2 w A beads i a b1 (t + 1) 0 k ≠ .ok (some b2, k') := by
  intro h
  rw [tryBead2, hd] at h
  dsimp only at h
  rw [if_pos hin, hc] at h
  exact tryBead2_stuck (Nat.succ_ne_zero c) h

/-- **C71** (a flat box). In a box without height and with the dumbbells in its plane, all beads stay in that
plane. -/
theorem C71_flat {fuel k k' : ℕ} {w : ℕ → ℝ} {A : DumbArgs} {ds : List (Vec3 × Vec3)} (hy : A.bl 1 = A.tr 1)
    (hp : A.phi = some 0) (h : randomise_dumbbells_periodic fuel w k A = .ok (ds, k')) :
    ∀ d ∈ ds, ∀ e, beadOf d e 1 = A.bl 1 := by
  obtain ⟨new, e1, rfl, e3⟩ := periodic_pairs h
  intro d hd e
  obtain ⟨b, hb, rfl⟩ := List.mem_map.1 hd
  obtain ⟨m, hm, hbm⟩ := List.mem_iff_getElem.1 hb
  obtain ⟨d, a, q1, -, q3⟩ := e3 m (by omega)
  have : d = b := by
    rw [List.getElem?_eq_getElem hm] at q1
    exact (Option.some.inj q1).symm.trans hbm
  subst this
  obtain ⟨th, ph, hb2, -, hph⟩ := q3.dir
  obtain ⟨k0, hb1⟩ := q3.box1
  obtain rfl := hph 0 hp
  have y1 : d.1 1 = A.bl 1 := by rw [hb1]; simp [random_point_in_box, hy]
  have y2 : d.2 1 = A.bl 1 := by rw [hb2]; simp [bead2At, y1]
  have e0 : (0.5 : ℝ) * (A.bl 1 + A.bl 1) - A.bl 1 = 0 := by ring
  simp only [beadOf, DumbArgs.wrapCentre, y1, y2, npMod, e0]
  simp

/-! ### Examples and defects -/

theorem proposePeriodic_first {w : ℕ → ℝ} {A : DumbArgs} {beads : List Vec3} {i : ℕ} {a : ℝ} {fuel k k2 : ℕ}
    {b1 b2 : Vec3} {th ph : ℝ} (e1 : random_point_in_box w k A.bl A.tr = b1)
    (hd : drawAngles w A.theta A.phi (k + 3) = (th, ph, k2)) (e2 : bead2At b1 A.dx th ph = b2)
    (h1 : ClearAll A beads i a b1) (h2 : ClearAll A beads i a b2) :
    proposeDumbbellPeriodic w A beads i a (fuel + 1) k = .ok (b1, b2, k2) := by
  have ht : tryBead2Periodic w A beads i a b1 (99 + 1) 0 (k + 3) = .ok (some b2, k2) := by
    rw [tryBead2Periodic, hd]
    dsimp only
    rw [e2, countImages_clear h2]
    rfl
  rw [proposeDumbbellPeriodic, e1, countImages_clear h1]
  refine bind_ok.2 ⟨0, rfl, ?_⟩
  rw [if_pos rfl]
  exact bind_ok.2 ⟨_, ht, rfl⟩

theorem minElement_of {out : List (Vec3 × Vec3)} {d : Vec3 × Vec3} (hd : d ∈ out) {c : Fin 3} (h : d.2 c ≠ 0) :
    minElementDistance (rebuiltBeads out) = .ok () := by
  rw [minElementDistance, if_pos]
  · rfl
  · refine ⟨_, List.mem_append_left _ (List.mem_map.2 ⟨d, hd, rfl⟩), _,
      List.mem_append_right _ (List.mem_map.2 ⟨d, hd, rfl⟩), ?_⟩
    rw [norm3_sub_eq_gap]
    intro h0
    have := coord_le_gap (fun c => d.1 c + 0.5 * d.2 c) (fun c => d.1 c - 0.5 * d.2 c) c
    rw [h0] at this
    have e := abs_nonpos_iff.1 this
    apply h
    linarith

theorem noSpheres_clear {A : DumbArgs} (hA : A.sphereSizes = []) {beads : List Vec3} {i : ℕ} {a : ℝ} {p : Vec3}
    (h : ∀ s ∈ A.shifts, ∀ j < 2 * i, ∃ q b, beads[j]? = some q ∧ A.sizes[j / 2]? = some b ∧ Apart p a (q + s) b) :
    ClearAll A beads i a p := fun s hs =>
  ⟨fun j hj => absurd hj (by simp [hA]), fun j hj => h s hs j hj⟩

/-- One dumbbell that hangs down from the bottom of a box. -/
noncomputable def hangArgs : DumbArgs where
  bl := ![0, 0, 0]
  tr := ![10, 10, 10]
  sizes := [1]
  dx := 2
  theta := some (3 * Real.pi / 2)
  phi := some (Real.pi / 2)
  sphereSizes := []
  spherePos := []

/-- Draws for a point in the middle of the bottom. -/
noncomputable def hangDraws : ℕ → ℝ := fun k => if k = 1 then 0 else 1 / 2

theorem hangDraws_stream : Stream hangDraws := by
  intro k; unfold hangDraws; split_ifs <;> norm_num

theorem sin_three_half : Real.sin (3 * Real.pi / 2) = -1 := by
  rw [show 3 * Real.pi / 2 = Real.pi / 2 + Real.pi by ring, Real.sin_add_pi, Real.sin_pi_div_two]

theorem cos_three_half : Real.cos (3 * Real.pi / 2) = 0 := by
  rw [show 3 * Real.pi / 2 = Real.pi / 2 + Real.pi by ring, Real.cos_add_pi, Real.cos_pi_div_two, neg_zero]

/-- **C71** (defect: the height of the centre). The centre is moved by whole millions in `y`, not by box heights: a
dumbbell whose centre is just below the bottom of the box ends up almost a million above it. -/
theorem C71_lost_height : Stream hangDraws ∧ ∃ d,
    randomise_dumbbells_periodic 1 hangDraws 0 hangArgs = .ok ([d], 3) ∧ d.1 1 = 999999 := by
  refine ⟨hangDraws_stream, (hangArgs.wrapCentre fun c => 0.5 * ((![5, 0, 5] : Vec3) c + (![5, -2, 5] : Vec3) c),
    fun c => (![5, -2, 5] : Vec3) c - (![5, 0, 5] : Vec3) c), ?_, ?_⟩
  · have p0 : random_point_in_box hangDraws 0 hangArgs.bl hangArgs.tr = ![5, 0, 5] := by
      funext c; fin_cases c <;> simp [random_point_in_box, hangDraws, hangArgs] <;> norm_num
    have b0 : bead2At ![5, 0, 5] hangArgs.dx (3 * Real.pi / 2) (Real.pi / 2) = ![5, -2, 5] := by
      funext c; fin_cases c <;> simp [bead2At, hangArgs, sin_three_half, cos_three_half]
    have e0 : proposeDumbbellPeriodic hangDraws hangArgs [] 0 1 (0 + 1) 0 = .ok (![5, 0, 5], ![5, -2, 5], 3) :=
      proposePeriodic_first p0 rfl b0 (noSpheres_clear rfl fun s _ j hj => absurd hj (by omega))
        (noSpheres_clear rfl fun s _ j hj => absurd hj (by omega))
    have al : hangArgs.alarm [] 0 ![5, 0, 5] ![5, -2, 5] = false := by simp [DumbArgs.alarm]
    have e1 : placeDumbbellsPeriodic 1 hangDraws hangArgs [1] 0 [] [] 0 = .ok
        ([(hangArgs.wrapCentre fun c => 0.5 * ((![5, 0, 5] : Vec3) c + (![5, -2, 5] : Vec3) c),
            fun c => (![5, -2, 5] : Vec3) c - (![5, 0, 5] : Vec3) c)], 3) := by
      rw [placeDumbbellsPeriodic]
      refine bind_ok.2 ⟨_, e0, ?_⟩
      dsimp only
      rw [al]
      rfl
    refine bind_ok.2 ⟨_, e1, bind_ok.2 ⟨(), minElement_of (List.mem_singleton.2 rfl) (c := 1) ?_, rfl⟩⟩
    simp
  · have : ⌊(-1 / 1000000 : ℝ)⌋ = -1 := by
      rw [Int.floor_eq_iff]; constructor <;> norm_num
    simp only [DumbArgs.wrapCentre, npMod, DumbArgs.modPeriods, hangArgs, Matrix.cons_val_one, Matrix.cons_val_zero]
    norm_num [this]

/-- Two long dumbbells in a square of side ten. -/
noncomputable def longArgs : DumbArgs where
  bl := ![0, 0, 0]
  tr := ![10, 0, 10]
  sizes := [3 / 4, 3 / 4]
  dx := 11 / 2
  theta := none
  phi := some 0
  sphereSizes := []
  spherePos := []

/-- Draws for one dumbbell to the right of 9 and one to the left of 1. -/
noncomputable def longDraws : ℕ → ℝ := fun k =>
  if k = 0 then 9 / 10 else if k = 3 then 1 / 4 else if k = 4 then 1 / 10 else if k = 7 then 3 / 4 else 0

theorem longDraws_stream : Stream longDraws := by
  intro k; unfold longDraws; split_ifs <;> norm_num

theorem long_shift {s : Vec3} (hs : s ∈ longArgs.shifts) : s 0 = -10 ∨ s 0 = 0 ∨ s 0 = 10 := by
  unfold DumbArgs.shifts at hs
  obtain ⟨m, hm, hs⟩ := List.mem_flatMap.1 hs
  obtain ⟨n, -, rfl⟩ := List.mem_map.1 hs
  have e : longArgs.tr 0 - longArgs.bl 0 = 10 := by simp [longArgs]
  simp only [Matrix.cons_val_zero, e]
  simp only [List.mem_cons, List.not_mem_nil, or_false] at hm
  rcases hm with rfl | rfl | rfl <;> norm_num

theorem long_apart {s p q : Vec3} (hs : s ∈ longArgs.shifts) (h : p 0 - q 0 ≤ -8 ∧ -19 ≤ p 0 - q 0)
    (h' : p 0 - q 0 ≤ -23 / 2 ∨ -17 / 2 ≤ p 0 - q 0) : Apart p (3 / 4) (q + s) (3 / 4) := by
  refine apart_of_coord 0 ?_
  rw [Pi.add_apply]
  rcases long_shift hs with e | e | e <;> rw [e, le_abs]
  · rcases h' with h' | h'
    · right; linarith
    · left; linarith
  · right; linarith
  · right; linarith

/-- **C71** (defect: long dumbbells). Only the neighbouring images are checked, which is not enough if the dumbbells
are longer than half the box: two beads of radius 3/4 can be accepted at a distance of 1. -/
theorem C71_long : Stream longDraws ∧ ∃ (d d' : Vec3 × Vec3) (m : Fin 3 → ℤ),
    randomise_dumbbells_periodic 1 longDraws 0 longArgs = .ok ([d, d'], 8) ∧
    gap (beadOf d true) (imageOf longArgs.modPeriods m (beadOf d' true)) = 1 := by
  refine ⟨longDraws_stream, ?_⟩
  have p0 : random_point_in_box longDraws 0 longArgs.bl longArgs.tr = ![9, 0, 0] := by
    funext c; fin_cases c <;> simp [random_point_in_box, longDraws, longArgs]
  have p1 : random_point_in_box longDraws 4 longArgs.bl longArgs.tr = ![1, 0, 0] := by
    funext c; fin_cases c <;> simp [random_point_in_box, longDraws, longArgs]
  have d0 : drawAngles longDraws longArgs.theta longArgs.phi (0 + 3) = (Real.pi / 2, 0, 4) := by
    simp [drawAngles, longArgs, longDraws]; ring
  have d1 : drawAngles longDraws longArgs.theta longArgs.phi (4 + 3) = (3 * Real.pi / 2, 0, 8) := by
    simp [drawAngles, longArgs, longDraws]; ring
  have b0 : bead2At ![9, 0, 0] longArgs.dx (Real.pi / 2) 0 = ![29 / 2, 0, 0] := by
    funext c; fin_cases c <;> simp [bead2At, longArgs]; norm_num
  have b1 : bead2At ![1, 0, 0] longArgs.dx (3 * Real.pi / 2) 0 = ![-9 / 2, 0, 0] := by
    funext c; fin_cases c <;> simp [bead2At, longArgs, sin_three_half, cos_three_half]; norm_num
  have e0 : proposeDumbbellPeriodic longDraws longArgs [] 0 (3 / 4) (0 + 1) 0 = .ok (![9, 0, 0], ![29 / 2, 0, 0], 4) :=
    proposePeriodic_first p0 d0 b0 (noSpheres_clear rfl fun s _ j hj => absurd hj (by omega))
      (noSpheres_clear rfl fun s _ j hj => absurd hj (by omega))
  have cl : ∀ p : Vec3, (∀ s ∈ longArgs.shifts, Apart p (3 / 4) (![9, 0, 0] + s) (3 / 4)) →
      (∀ s ∈ longArgs.shifts, Apart p (3 / 4) (![29 / 2, 0, 0] + s) (3 / 4)) →
      ClearAll longArgs [![9, 0, 0], ![29 / 2, 0, 0]] 1 (3 / 4) p := by
    intro p h1 h2
    refine noSpheres_clear rfl fun s hs j hj => ?_
    obtain rfl | rfl : j = 0 ∨ j = 1 := by omega
    · exact ⟨_, _, rfl, rfl, h1 s hs⟩
    · exact ⟨_, _, rfl, rfl, h2 s hs⟩
  have a1 : ∀ s ∈ longArgs.shifts, Apart ![1, 0, 0] (3 / 4) (![9, 0, 0] + s) (3 / 4) := fun s hs =>
    long_apart hs (by norm_num) (by norm_num)
  have a2 : ∀ s ∈ longArgs.shifts, Apart ![1, 0, 0] (3 / 4) (![29 / 2, 0, 0] + s) (3 / 4) := fun s hs =>
    long_apart hs (by norm_num) (by norm_num)
  have a3 : ∀ s ∈ longArgs.shifts, Apart ![-9 / 2, 0, 0] (3 / 4) (![9, 0, 0] + s) (3 / 4) := fun s hs =>
    long_apart hs (by norm_num) (by norm_num)
  have a4 : ∀ s ∈ longArgs.shifts, Apart ![-9 / 2, 0, 0] (3 / 4) (![29 / 2, 0, 0] + s) (3 / 4) := fun s hs =>
    long_apart hs (by norm_num) (by norm_num)
  have e1 : proposeDumbbellPeriodic longDraws longArgs [![9, 0, 0], ![29 / 2, 0, 0]] 1 (3 / 4) (0 + 1) 4
      = .ok (![1, 0, 0], ![-9 / 2, 0, 0], 8) :=
    proposePeriodic_first p1 d1 b1 (cl _ a1 a2) (cl _ a3 a4)
  have al0 : longArgs.alarm [] 0 ![9, 0, 0] ![29 / 2, 0, 0] = false := by simp [DumbArgs.alarm]
  have al1 : longArgs.alarm [![9, 0, 0], ![29 / 2, 0, 0]] 1 ![1, 0, 0] ![-9 / 2, 0, 0] = false := by
    refine decide_eq_false ?_
    rintro ⟨s, hs, p, hp, h⟩
    obtain rfl : p = ![9, 0, 0] := by simpa using hp
    have h1 := a1 s hs
    have h3 := a3 s hs
    rw [norm3_sub_eq_gap, norm3_sub_eq_gap] at h
    unfold Apart at h1 h3
    rcases h with h | h <;> linarith
  obtain ⟨K, hK⟩ := bead_moved longArgs ![9, 0, 0] ![29 / 2, 0, 0]
  obtain ⟨K', hK'⟩ := bead_moved longArgs ![1, 0, 0] ![-9 / 2, 0, 0]
  refine ⟨(longArgs.wrapCentre fun c => 0.5 * ((![9, 0, 0] : Vec3) c + (![29 / 2, 0, 0] : Vec3) c),
      fun c => (![29 / 2, 0, 0] : Vec3) c - (![9, 0, 0] : Vec3) c),
    (longArgs.wrapCentre fun c => 0.5 * ((![1, 0, 0] : Vec3) c + (![-9 / 2, 0, 0] : Vec3) c),
      fun c => (![-9 / 2, 0, 0] : Vec3) c - (![1, 0, 0] : Vec3) c), K - K' + ![2, 0, 0], ?_, ?_⟩
  · have e2 : placeDumbbellsPeriodic 1 longDraws longArgs [3 / 4, 3 / 4] 0 [] [] 0 = .ok
        ([(longArgs.wrapCentre fun c => 0.5 * ((![9, 0, 0] : Vec3) c + (![29 / 2, 0, 0] : Vec3) c),
            fun c => (![29 / 2, 0, 0] : Vec3) c - (![9, 0, 0] : Vec3) c),
          (longArgs.wrapCentre fun c => 0.5 * ((![1, 0, 0] : Vec3) c + (![-9 / 2, 0, 0] : Vec3) c),
            fun c => (![-9 / 2, 0, 0] : Vec3) c - (![1, 0, 0] : Vec3) c)], 8) := by
      rw [placeDumbbellsPeriodic]
      refine bind_ok.2 ⟨_, e0, ?_⟩
      dsimp only
      rw [al0]
      simp only [Bool.false_eq_true, if_false]
      rw [placeDumbbellsPeriodic]
      refine bind_ok.2 ⟨_, e1, ?_⟩
      exact (if_neg fun h => Bool.false_ne_true (al1.symm.trans h)).trans rfl
    refine bind_ok.2 ⟨_, e2, bind_ok.2 ⟨(), minElement_of (List.mem_cons_self ..) (c := 0) ?_, rfl⟩⟩
    norm_num
  · rw [hK true, hK' true]
    have : (fun c => imageOf longArgs.modPeriods K (if true = true then ![29 / 2, 0, 0] else ![9, 0, 0]) c
        - imageOf longArgs.modPeriods (K - K' + ![2, 0, 0])
          (imageOf longArgs.modPeriods K' (if true = true then ![-9 / 2, 0, 0] else ![1, 0, 0])) c) = ![-1, 0, 0] := by
      funext c
      have m0 : longArgs.modPeriods 0 = 10 := by simp [DumbArgs.modPeriods, longArgs]
      simp only [imageOf, if_true, Pi.add_apply, Pi.sub_apply]
      push_cast
      fin_cases c
      · simp [m0]; ring
      · simp; ring
      · simp; ring
    unfold gap
    rw [this]
    simp [len, Fin.sum_univ_three]

/-- Two upright dumbbells in a cube of side ten, with a sphere half way up. -/
noncomputable def stackArgs : DumbArgs where
  bl := ![0, 0, 0]
  tr := ![10, 10, 10]
  sizes := [1, 1]
  dx := 2
  theta := some 0
  phi := some 0
  sphereSizes := [1]
  spherePos := [![0, 5, 0]]

/-- Draws that put one dumbbell at the bottom and one near the top. -/
noncomputable def stackDraws : ℕ → ℝ := fun k => if k = 1 then 0 else if k = 4 then 19 / 20 else 1 / 2

theorem stackDraws_stream : Stream stackDraws := by
  intro k; unfold stackDraws; split_ifs <;> norm_num

theorem stack_shift {s : Vec3} (hs : s ∈ stackArgs.shifts) : s 1 = 0 := by
  unfold DumbArgs.shifts at hs
  obtain ⟨m, -, hs⟩ := List.mem_flatMap.1 hs
  obtain ⟨n, -, rfl⟩ := List.mem_map.1 hs
  rfl

theorem stack_apart {s p q : Vec3} (hs : s ∈ stackArgs.shifts) (h : 2 ≤ |p 1 - q 1|) :
    Apart p 1 (q + s) 1 := by
  refine apart_of_coord 1 ?_
  rw [Pi.add_apply, stack_shift hs, add_zero]
  linarith

theorem stack_clear {beads : List Vec3} {i : ℕ} {p : Vec3} (hp : p 1 = 0 ∨ p 1 = 19 / 2)
    (h : ∀ s ∈ stackArgs.shifts, ∀ j < 2 * i, ∃ q b, beads[j]? = some q ∧ stackArgs.sizes[j / 2]? = some b ∧
      Apart p 1 (q + s) b) : ClearAll stackArgs beads i 1 p := fun s hs => by
  refine ⟨fun j hj => ?_, fun j hj => h s hs j hj⟩
  obtain rfl : j = 0 := by
    have : stackArgs.sphereSizes.length = 1 := rfl
    omega
  refine ⟨_, _, rfl, rfl, stack_apart hs ?_⟩
  rcases hp with hp | hp <;> rw [hp] <;> norm_num [abs_of_pos, abs_of_neg]

/-- The two dumbbells that result. -/
theorem stack_result : randomise_dumbbells_periodic 1 stackDraws 0 stackArgs
    = .ok ([(![5, 0, 6], ![0, 0, 2]), (![5, 19 / 2, 6], ![0, 0, 2])], 6) := by
  have p0 : random_point_in_box stackDraws 0 stackArgs.bl stackArgs.tr = ![5, 0, 5] := by
    funext c; fin_cases c <;> simp [random_point_in_box, stackDraws, stackArgs] <;> norm_num
  have p1 : random_point_in_box stackDraws 3 stackArgs.bl stackArgs.tr = ![5, 19 / 2, 5] := by
    funext c; fin_cases c <;> simp [random_point_in_box, stackDraws, stackArgs] <;> norm_num
  have b0 : bead2At ![5, 0, 5] stackArgs.dx 0 0 = ![5, 0, 7] := by
    funext c; fin_cases c <;> simp [bead2At, stackArgs]; norm_num
  have b1 : bead2At ![5, 19 / 2, 5] stackArgs.dx 0 0 = ![5, 19 / 2, 7] := by
    funext c; fin_cases c <;> simp [bead2At, stackArgs]; norm_num
  have e0 : proposeDumbbellPeriodic stackDraws stackArgs [] 0 1 (0 + 1) 0 = .ok (![5, 0, 5], ![5, 0, 7], 3) :=
    proposePeriodic_first p0 rfl b0 (stack_clear (.inl rfl) fun s _ j hj => absurd hj (by omega))
      (stack_clear (.inl rfl) fun s _ j hj => absurd hj (by omega))
  have cl : ∀ p : Vec3, p 1 = 19 / 2 → ClearAll stackArgs [![5, 0, 5], ![5, 0, 7]] 1 1 p := by
    intro p hp
    refine stack_clear (.inr hp) fun s hs j hj => ?_
    obtain rfl | rfl : j = 0 ∨ j = 1 := by omega
    · exact ⟨_, _, rfl, rfl, stack_apart hs (by rw [hp]; norm_num [abs_of_pos])⟩
    · exact ⟨_, _, rfl, rfl, stack_apart hs (by rw [hp]; norm_num [abs_of_pos])⟩
  have e1 : proposeDumbbellPeriodic stackDraws stackArgs [![5, 0, 5], ![5, 0, 7]] 1 1 (0 + 1) 3
      = .ok (![5, 19 / 2, 5], ![5, 19 / 2, 7], 6) :=
    proposePeriodic_first p1 rfl b1 (cl _ (by simp)) (cl _ (by simp))
  have al0 : stackArgs.alarm [] 0 ![5, 0, 5] ![5, 0, 7] = false := by simp [DumbArgs.alarm]
  have al1 : stackArgs.alarm [![5, 0, 5], ![5, 0, 7]] 1 ![5, 19 / 2, 5] ![5, 19 / 2, 7] = false := by
    refine decide_eq_false ?_
    rintro ⟨s, hs, p, hp, h⟩
    obtain rfl : p = ![5, 0, 5] := by simpa using hp
    have h1 : Apart ![5, 19 / 2, 5] 1 (![5, 0, 5] + s) 1 := stack_apart hs (by norm_num [abs_of_pos])
    have h3 : Apart ![5, 19 / 2, 7] 1 (![5, 0, 5] + s) 1 := stack_apart hs (by norm_num [abs_of_pos])
    rw [norm3_sub_eq_gap, norm3_sub_eq_gap] at h
    unfold Apart at h1 h3
    rcases h with h | h <;> linarith
  have f0 : ⌊(6 / 10 : ℝ)⌋ = 0 := by rw [Int.floor_eq_iff]; constructor <;> norm_num
  have f1 : ⌊(5 / 10 : ℝ)⌋ = 0 := by rw [Int.floor_eq_iff]; constructor <;> norm_num
  have f2 : ⌊((19 / 2) / 1000000 : ℝ)⌋ = 0 := by rw [Int.floor_eq_iff]; constructor <;> norm_num
  have w0 : (stackArgs.wrapCentre fun c => 0.5 * ((![5, 0, 5] : Vec3) c + (![5, 0, 7] : Vec3) c)) = ![5, 0, 6] := by
    have g0 : (0.5 : ℝ) * (5 + 5) = 5 := by norm_num
    have g1 : (0.5 : ℝ) * (5 + 7) = 6 := by norm_num
    funext c
    fin_cases c <;> simp [DumbArgs.wrapCentre, npMod, DumbArgs.modPeriods, stackArgs, g0, g1, f0, f1]
  have w1 : (stackArgs.wrapCentre fun c => 0.5 * ((![5, 19 / 2, 5] : Vec3) c + (![5, 19 / 2, 7] : Vec3) c))
      = ![5, 19 / 2, 6] := by
    have g0 : (0.5 : ℝ) * (5 + 5) = 5 := by norm_num
    have g1 : (0.5 : ℝ) * (5 + 7) = 6 := by norm_num
    have g2 : (0.5 : ℝ) * 19 = 19 / 2 := by norm_num
    funext c
    fin_cases c <;> simp [DumbArgs.wrapCentre, npMod, DumbArgs.modPeriods, stackArgs, g0, g1, g2, f0, f1, f2]
  have d0 : (fun c => (![5, 0, 7] : Vec3) c - (![5, 0, 5] : Vec3) c) = ![0, 0, 2] := by
    funext c; fin_cases c <;> simp; norm_num
  have d1 : (fun c => (![5, 19 / 2, 7] : Vec3) c - (![5, 19 / 2, 5] : Vec3) c) = ![0, 0, 2] := by
    funext c; fin_cases c <;> simp; norm_num
  have e2 : placeDumbbellsPeriodic 1 stackDraws stackArgs [1, 1] 0 [] [] 0
      = .ok ([(![5, 0, 6], ![0, 0, 2]), (![5, 19 / 2, 6], ![0, 0, 2])], 6) := by
    rw [placeDumbbellsPeriodic]
    refine bind_ok.2 ⟨_, e0, ?_⟩
    dsimp only
    rw [al0, w0, d0]
    simp only [Bool.false_eq_true, if_false]
    rw [placeDumbbellsPeriodic]
    refine bind_ok.2 ⟨_, e1, ?_⟩
    dsimp only
    rw [w1, d1]
    exact (if_neg fun h => Bool.false_ne_true (al1.symm.trans h)).trans rfl
  exact bind_ok.2 ⟨_, e2, bind_ok.2 ⟨(), minElement_of (List.mem_cons_self ..) (c := 2) (by simp), rfl⟩⟩

/-- The hypotheses of `C71_shape`, `C71_apart` and `C71_spheres` are met by these two dumbbells. -/
example : stackArgs.bl 0 < stackArgs.tr 0 ∧ stackArgs.bl 1 ≤ stackArgs.tr 1 ∧ stackArgs.bl 2 < stackArgs.tr 2 ∧
    2 * |stackArgs.dx| + 1 + 1 ≤ stackArgs.tr 0 - stackArgs.bl 0 ∧
    2 * |stackArgs.dx| + 1 + 1 ≤ stackArgs.tr 2 - stackArgs.bl 2 ∧
    stackArgs.tr 1 - stackArgs.bl 1 + 2 * |stackArgs.dx| + 1 + 1 ≤ 1000000 ∧
    stackArgs.spherePos[0]? = some ![0, 5, 0] ∧ stackArgs.sphereSizes[0]? = some 1 ∧
    InBox stackArgs.bl stackArgs.tr ![0, 5, 0] := by
  have hin : InBox stackArgs.bl stackArgs.tr ![0, 5, 0] := by
    intro c; fin_cases c <;> norm_num [stackArgs]
  refine ⟨?_, ?_, ?_, ?_, ?_, ?_, rfl, rfl, hin⟩
  all_goals
    have e0 : (![0, 0, 0] : Vec3) 2 = 0 := rfl
    have e1 : (![10, 10, 10] : Vec3) 2 = 10 := rfl
    norm_num [stackArgs, e0, e1]

/-- **C71** (defect: images above and below). Images in `y` are not looked at: in a cube of side ten, with dumbbells
short enough for `C71_apart`, a bead of radius 1 is accepted at a distance of 1/2 from the image of another. -/
theorem C71_height_not_periodic : Stream stackDraws ∧ ∃ (d d' : Vec3 × Vec3) (m : Fin 3 → ℤ),
    randomise_dumbbells_periodic 1 stackDraws 0 stackArgs = .ok ([d, d'], 6) ∧
    gap (beadOf d true) (imageOf (fun c => stackArgs.tr c - stackArgs.bl c) m (beadOf d' true)) = 1 / 2 := by
  refine ⟨stackDraws_stream, _, _, ![0, -1, 0], stack_result, ?_⟩
  have : (fun c => beadOf (![5, 0, 6], ![0, 0, 2]) true c
      - imageOf (fun c => stackArgs.tr c - stackArgs.bl c) ![0, -1, 0]
        (beadOf (![5, 19 / 2, 6], ![0, 0, 2]) true) c) = ![0, 1 / 2, 0] := by
    funext c; fin_cases c <;> simp [beadOf, imageOf, stackArgs]; norm_num
  unfold gap
  rw [this]
  have e : (![0, 1 / 2, 0] : Vec3) 2 = 0 := rfl
  simp only [len, Fin.sum_univ_three, Matrix.cons_val_zero, Matrix.cons_val_one, e]
  rw [show (0 : ℝ) ^ 2 + (1 / 2) ^ 2 + 0 ^ 2 = (1 / 2) ^ 2 by norm_num]
  exact Real.sqrt_sq (by norm_num)

end SD
