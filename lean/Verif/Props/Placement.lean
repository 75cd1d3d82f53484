import Verif.Lemmas.PlacementExists

/-!
C41, C42: random placement.
-/

set_option autoImplicit false

namespace SD

open Spec

/-! ## C41: spheres -/

/-- **C41**. Whatever numbers are drawn, a placement that finishes gives one sphere for each requested size,
with its centre in the box, overlapping neither another new sphere nor an old one. -/
theorem C41_valid {fuel k k' : ℕ} {w : ℕ → ℝ} {bl tr : Vec3} {rnd cur : List ℝ} {pos ps : List Vec3}
    (hw : Stream w) (hbox : ∀ c, bl c ≤ tr c) (hlen : pos.length = cur.length)
    (h : randomise_spheres fuel w k bl tr rnd cur pos = .ok (ps, k')) :
    ps.length = rnd.length ∧ (∀ p ∈ ps, InBox bl tr p) ∧
    (∀ (i j : ℕ) p q a b, i ≠ j → ps[i]? = some p → rnd[i]? = some a → ps[j]? = some q → rnd[j]? = some b →
      Apart p a q b) ∧
    ∀ (i j : ℕ) p q a b, ps[i]? = some p → rnd[i]? = some a → pos[j]? = some q → cur[j]? = some b →
      Apart p a q b := by
  obtain ⟨⟨out, k1⟩, h1, h2⟩ := bind_ok.1 h
  obtain ⟨-, -, h3⟩ := bind_ok.1 h2
  obtain ⟨new, e1, e2, e3⟩ := placeSpheres_ok h1
  have hps : ps = new := by
    have e := congrArg Prod.fst (ok_pure h3)
    dsimp only at e
    rw [← e, e1, List.take_of_length_le (by simp [e2, hlen])]
    simp
  subst hps
  have get : ∀ (i : ℕ) p a, ps[i]? = some p → rnd[i]? = some a →
      (∃ k0, p = random_point_in_box w k0 bl tr) ∧
        ∀ j < cur.length + 0 + i, ∃ q b, (pos ++ ps)[j]? = some q ∧ (cur ++ rnd)[j]? = some b ∧ Apart p a q b := by
    intro i p a hp ha
    have hi : i < rnd.length := by
      by_contra hge
      rw [List.getElem?_eq_none (by omega)] at ha
      exact absurd ha (by simp)
    obtain ⟨p', a', q1, q2, q3, q4⟩ := e3 i hi
    rw [hp] at q1; rw [ha] at q2
    obtain rfl := Option.some.inj q1
    obtain rfl := Option.some.inj q2
    exact ⟨q3, q4⟩
  have old : ∀ (i j : ℕ) p q a b, ps[i]? = some p → rnd[i]? = some a → pos[j]? = some q → cur[j]? = some b →
      Apart p a q b := by
    intro i j p q a b hp ha hq hb
    have hj : j < cur.length := by
      by_contra hge
      rw [List.getElem?_eq_none (by omega)] at hb
      exact absurd hb (by simp)
    obtain ⟨q', b', q1, q2, q3⟩ := (get i p a hp ha).2 j (by omega)
    rw [List.getElem?_append_left (by omega), hq] at q1
    rw [List.getElem?_append_left hj, hb] at q2
    obtain rfl := Option.some.inj q1
    obtain rfl := Option.some.inj q2
    exact q3
  have lower : ∀ (i j : ℕ) p q a b, j < i → ps[i]? = some p → rnd[i]? = some a → ps[j]? = some q →
      rnd[j]? = some b → Apart p a q b := by
    intro i j p q a b hij hp ha hq hb
    obtain ⟨q', b', q1, q2, q3⟩ := (get i p a hp ha).2 (cur.length + j) (by omega)
    rw [List.getElem?_append_right (by omega), hlen, Nat.add_sub_cancel_left, hq] at q1
    rw [List.getElem?_append_right (by omega), Nat.add_sub_cancel_left, hb] at q2
    obtain rfl := Option.some.inj q1
    obtain rfl := Option.some.inj q2
    exact q3
  refine ⟨e2, fun p hp => ?_, fun i j p q a b hij hp ha hq hb => ?_, old⟩
  · obtain ⟨i, hi, rfl⟩ := List.getElem_of_mem hp
    obtain ⟨⟨k0, hk⟩, -⟩ := get i ps[i] rnd[i] (List.getElem?_eq_getElem hi) (List.getElem?_eq_getElem (by omega))
    rw [hk]
    exact inBox_random hw k0 hbox
  · rcases Nat.lt_or_gt_of_ne hij with hl | hl
    · exact apart_comm.1 (lower j i q p b a hl hq hb hp ha)
    · exact lower i j p q a b hl hp ha hq hb

/-- **C41** (the bound on rounds is harmless). Once a placement stops, allowing more rounds gives the same
outcome. -/
theorem C41_definite {fuel fuel' k : ℕ} {w : ℕ → ℝ} {bl tr : Vec3} {rnd cur : List ℝ} {pos : List Vec3}
    (h : randomise_spheres fuel w k bl tr rnd cur pos ≠ .error .unfinished) (hf : fuel ≤ fuel') :
    randomise_spheres fuel' w k bl tr rnd cur pos = randomise_spheres fuel w k bl tr rnd cur pos := by
  obtain ⟨m, rfl⟩ := Nat.exists_eq_add_of_le hf
  exact randomise_spheres_mono h

/-- **C41** (error branch). If an existing sphere has a size but no position, placement stops with an
exception rather than ignoring that sphere. -/
theorem C41_missing_position {fuel k : ℕ} {w : ℕ → ℝ} {bl tr : Vec3} {rnd cur : List ℝ} {pos : List Vec3}
    (hr : rnd ≠ []) (hlen : pos.length < cur.length) :
    randomise_spheres (fuel + 1) w k bl tr rnd cur pos = .error .index := by
  obtain ⟨a, rest, rfl⟩ := List.exists_cons_of_ne_nil hr
  have e : countClose (random_point_in_box w k bl tr) a (fun j => pos[j]?)
      (fun j => (cur ++ a :: rest)[j]?) (cur.length + 0) 0 = .error .index :=
    countClose_missing 0 (j := pos.length) (by omega) (.inl (by simp))
  simp only [randomise_spheres, placeSpheres, proposeSphere, e, bind, Except.bind]

/-- **C41** (error branch). Asking for one sphere never succeeds: the statistic printed afterwards takes the
minimum over the distances between new spheres, of which there are none. -/
theorem C41_single {fuel k : ℕ} {w : ℕ → ℝ} {bl tr : Vec3} {a : ℝ} {cur : List ℝ} {pos : List Vec3}
    (hlen : pos.length = cur.length) :
    ∀ r, randomise_spheres fuel w k bl tr [a] cur pos ≠ .ok r := by
  intro r h
  obtain ⟨⟨out, k1⟩, h1, h2⟩ := bind_ok.1 h
  obtain ⟨u, h4, _⟩ := bind_ok.1 h2
  obtain ⟨new, e1, e2, -⟩ := placeSpheres_ok h1
  obtain ⟨p, rfl⟩ := List.length_eq_one_iff.1 e2
  obtain ⟨x, hx, y, hy, hg⟩ := minElement_ok h4
  have hmem : ∀ z, z ∈ (out.take (cur ++ [a]).length).drop pos.length → z = p := by
    intro z hz
    rw [e1, List.take_of_length_le (by simp [hlen])] at hz
    simpa using hz
  rw [hmem x hx, hmem y hy, gap_self] at hg
  exact hg rfl

/-- **C41** (no guarantee of stopping). If every point of the box is too close to an existing sphere, the loop
runs for ever. -/
theorem C41_full_box {k : ℕ} {w : ℕ → ℝ} {bl tr : Vec3} {a : ℝ} {rnd cur : List ℝ} {pos : List Vec3}
    (hw : Stream w) (hbox : ∀ c, bl c ≤ tr c) (hlen : pos.length = cur.length)
    (hfull : ∀ p, InBox bl tr p → ∃ (j : ℕ) (q : Vec3) (b : ℝ), pos[j]? = some q ∧ cur[j]? = some b ∧
      ¬ Apart p a q b) (fuel : ℕ) :
    randomise_spheres fuel w k bl tr (a :: rnd) cur pos = .error .unfinished := by
  have key : ∀ k, proposeSphere w bl tr pos (cur ++ a :: rnd) a (cur.length + 0) fuel k
      = .error .unfinished := by
    induction fuel with
    | zero => exact fun k => rfl
    | succ fuel ih =>
      intro k
      rw [proposeSphere]
      obtain ⟨c, hc⟩ := countClose_total (p := random_point_in_box w k bl tr) (a := a)
        (pos := fun j => pos[j]?) (size := fun j => (cur ++ a :: rnd)[j]?) (n := cur.length + 0) 0 (by
          intro j hj
          constructor
          · rw [ne_eq, List.getElem?_eq_none_iff]; omega
          · rw [ne_eq, List.getElem?_eq_none_iff]; simp; omega)
      have hne : c ≠ 0 := by
        rintro rfl
        obtain ⟨j, q, b, hq, hb, hn⟩ := hfull _ (inBox_random hw k hbox)
        have hj : j < cur.length := by
          by_contra hge
          rw [List.getElem?_eq_none (by omega)] at hb
          exact absurd hb (by simp)
        obtain ⟨q', b', q1, q2, q3⟩ := (countClose_ok hc).2 j (by omega)
        rw [hq] at q1
        rw [List.getElem?_append_left hj, hb] at q2
        obtain rfl := Option.some.inj q1
        obtain rfl := Option.some.inj q2
        exact hn (q3 rfl)
      rw [hc]
      simp only [bind, Except.bind, if_neg hne]
      exact ih _
  simp only [randomise_spheres, placeSpheres, key, bind, Except.bind]

/-! ### Examples -/

/-- Zeros, then halves. -/
noncomputable def demoStream : ℕ → ℝ := fun k => if k < 3 then 0 else 1 / 2

theorem demoStream_ok : Stream demoStream := by
  intro k; unfold demoStream; split_ifs <;> norm_num

/-- A run with one sphere present and two placed. -/
theorem demo_placed : ∃ r, randomise_spheres 1 demoStream 0 (fun _ => 0) (fun _ => 10) [1, 1] [2]
    [fun _ => -10] = .ok r := by
  have p0 : random_point_in_box demoStream 0 (fun _ => 0) (fun _ => 10) = fun _ => 0 := by
    funext c; fin_cases c <;> simp [random_point_in_box, demoStream]
  have p1 : random_point_in_box demoStream 3 (fun _ => 0) (fun _ => 10) = fun _ => 5 := by
    funext c; fin_cases c <;> simp [random_point_in_box, demoStream] <;> norm_num
  have g1 : Apart (fun _ => 0) 1 (fun _ => -10) 2 := by
    refine Real.le_sqrt_of_sq_le ?_
    norm_num [Fin.sum_univ_three]
  have g2 : Apart (fun _ => 5) 1 (fun _ => -10) 2 := by
    refine Real.le_sqrt_of_sq_le ?_
    norm_num [Fin.sum_univ_three]
  have g3 : Apart (fun _ => 5) 1 (fun _ => 0) 1 := by
    refine Real.le_sqrt_of_sq_le ?_
    norm_num [Fin.sum_univ_three]
  have hm : minElementDistance [fun _ => 0, fun _ => 5] = .ok () := by
    unfold minElementDistance
    rw [if_pos]
    · rfl
    · refine ⟨fun _ => 0, by simp, fun _ => 5, by simp, ?_⟩
      simp only [norm3]
      norm_num
  refine ⟨([fun _ => 0, fun _ => 5], 6), ?_⟩
  simp [randomise_spheres, placeSpheres, proposeSphere, countClose, List.range_succ, p0, p1,
    overlaps_false.2 g1, overlaps_false.2 g2, overlaps_false.2 g3, hm, bind, Except.bind, pure, Except.pure]

example := C41_valid demoStream_ok (fun _ => by norm_num) rfl demo_placed.choose_spec
example := C41_definite (fuel' := 7) (by rw [demo_placed.choose_spec]; simp) (by norm_num)
example := C41_missing_position (fuel := 3) (k := 0) (w := demoStream) (bl := fun _ => 0) (tr := fun _ => 1)
  (rnd := [1, 2]) (cur := [1]) (pos := []) (by simp) (by simp)
example := C41_single (fuel := 3) (k := 0) (w := demoStream) (bl := fun _ => 0) (tr := fun _ => 1)
  (a := 1) (cur := [2]) (pos := [fun _ => 5]) rfl

/-- A unit sphere does not fit into a box of side 1 already holding one at its centre. -/
example := C41_full_box (k := 0) (bl := fun _ => 0) (tr := fun _ => 1) (a := 1) (rnd := [1]) (cur := [1])
  (pos := [fun _ => 1 / 2]) demoStream_ok (fun _ => by norm_num) rfl (by
    intro p hp
    refine ⟨0, _, _, rfl, rfl, ?_⟩
    rw [Apart, not_le]
    have e : (1 : ℝ) + 1 = Real.sqrt 4 := by
      rw [show (4 : ℝ) = 2 ^ 2 by norm_num, Real.sqrt_sq (by norm_num)]; norm_num
    rw [e]
    refine Real.sqrt_lt_sqrt (Finset.sum_nonneg fun c _ => sq_nonneg _) ?_
    have h : ∀ c, (p c - 1 / 2) ^ 2 ≤ 1 / 4 := by
      intro c
      have := hp c
      nlinarith
    rw [Fin.sum_univ_three]
    have := h 0; have := h 1; have := h 2
    linarith)

/-- **C41** (nothing is excluded). Every placement of at least two distinct spheres that is valid, with the
centres off the top faces of the box, is the outcome for some draws. -/
theorem C41_every {bl tr : Vec3} {rnd cur : List ℝ} {pos ps : List Vec3} (hlen : pos.length = cur.length)
    (hl : ps.length = rnd.length) (hd : ∀ p ∈ ps, Drawable bl tr p)
    (hnew : ∀ (i j : ℕ) p q a b, j < i → ps[i]? = some p → rnd[i]? = some a → ps[j]? = some q →
      rnd[j]? = some b → Apart p a q b)
    (hold : ∀ (i j : ℕ) p q a b, ps[i]? = some p → rnd[i]? = some a → pos[j]? = some q → cur[j]? = some b →
      Apart p a q b)
    (htwo : ∃ p ∈ ps, ∃ q ∈ ps, gap p q ≠ 0) :
    ∃ w, Stream w ∧ randomise_spheres 1 w 0 bl tr rnd cur pos = .ok (ps, 3 * ps.length) := by
  refine ⟨script bl tr ps, script_stream hd, ?_⟩
  have e := placeSpheres_script (fuel := 0) (sizes := cur ++ rnd) (current := cur.length) ps rnd 0 0 pos hl
    (fun m p hp => script_draws hd hp) (fun m p a hp ha j hj => ?_) (by omega)
  · refine bind_ok.2 ⟨_, e, ?_⟩
    dsimp only
    have e2 : ((pos ++ ps).take (cur ++ rnd).length).drop pos.length = ps := by
      rw [List.take_of_length_le (by simp [hl, hlen])]; simp
    rw [e2]
    refine bind_ok.2 ⟨(), ?_, by rw [Nat.zero_add]; rfl⟩
    rw [minElementDistance, if_pos]
    · rfl
    · simpa only [norm3_sub_eq_gap] using htwo
  · rcases Nat.lt_or_ge j cur.length with hjc | hjc
    · have h1 : pos[j]? = some pos[j] := List.getElem?_eq_getElem (by omega)
      have h2 : cur[j]? = some cur[j] := List.getElem?_eq_getElem hjc
      exact ⟨_, _, by rw [List.getElem?_append_left (by omega)]; exact h1,
        by rw [List.getElem?_append_left hjc]; exact h2, hold m j p _ a _ hp ha h1 h2⟩
    · have hm : m < ps.length := by
        by_contra hge
        rw [List.getElem?_eq_none (by omega)] at hp
        exact absurd hp (by simp)
      have hj1 : j - cur.length < ps.length := by omega
      have h1 : ps[j - cur.length]? = some ps[j - cur.length] := List.getElem?_eq_getElem hj1
      have h2 : rnd[j - cur.length]? = some (rnd[j - cur.length]'(by omega)) := List.getElem?_eq_getElem _
      exact ⟨_, _, by rw [List.getElem?_append_right (by omega), hlen]; exact h1,
        by rw [List.getElem?_append_right hjc]; exact h2,
        hnew m (j - cur.length) p _ a _ (by omega) hp ha h1 h2⟩

/-- **C41** (the shipped random setup). In position setup 5 all 41 centres lie in the plane `y = 0`, each unit
sphere is inside the square of side 16.2, and no two of them overlap. -/
theorem C41_setup5 {fuel k k' : ℕ} {w : ℕ → ℝ} {ps : List Vec3} (hw : Stream w)
    (h : setup5 fuel w k = .ok (ps, k')) :
    ps.length = 41 ∧ (∀ p ∈ ps, p 1 = 0 ∧ |p 0| + 1 ≤ 8.1 ∧ |p 2| + 1 ≤ 8.1) ∧
    ∀ (i j : ℕ) p q, i ≠ j → ps[i]? = some p → ps[j]? = some q → 2 ≤ gap p q := by
  obtain ⟨h1, h2, h3, -⟩ := C41_valid hw (by
    intro c; fin_cases c <;> simp <;> norm_num) rfl h
  refine ⟨by simpa using h1, fun p hp => ?_, fun i j p q hij hp hq => ?_⟩
  · have e0 := h2 p hp 0
    have e1 := h2 p hp 1
    have e2 := h2 p hp 2
    simp only [Matrix.cons_val_zero, Matrix.cons_val_one, Matrix.cons_val] at e0 e1 e2
    refine ⟨le_antisymm e1.2 e1.1, ?_, ?_⟩
    · have : |p 0| ≤ 7.1 := abs_le.2 ⟨by linarith [e0.1], by linarith [e0.2]⟩
      linarith
    · have : |p 2| ≤ 7.1 := abs_le.2 ⟨by linarith [e2.1], by linarith [e2.2]⟩
      linarith
  · have len : ∀ (m : ℕ) (x : Vec3), ps[m]? = some x → (List.replicate 41 (1 : ℝ))[m]? = some 1 := by
      intro m x hx
      have hm : m < 41 := by
        by_contra hge
        rw [List.getElem?_eq_none (by rw [h1, List.length_replicate]; omega)] at hx
        exact absurd hx (by simp)
      rw [List.getElem?_replicate, if_pos hm]
    have := h3 i j p q 1 1 hij hp (len i p hp) hq (len j q hq)
    rw [Apart] at this
    linarith

/-- The centres of a square lattice. -/
noncomputable def latticePoint (m : ℕ) : Vec3 := ![-7.1 + 2 * (m % 8 : ℕ), 0, -7.1 + 2 * (m / 8 : ℕ)]

/-- Setup 5 can finish. -/
theorem setup5_finishes : ∃ w, Stream w ∧
    setup5 1 w 0 = .ok ((List.range 41).map latticePoint, 3 * ((List.range 41).map latticePoint).length) := by
  have hget : ∀ (i : ℕ) p, ((List.range 41).map latticePoint)[i]? = some p → i < 41 ∧ p = latticePoint i := by
    intro i p hp
    rw [List.getElem?_map] at hp
    by_cases hi : i < 41
    · rw [List.getElem?_range hi] at hp
      exact ⟨hi, (Option.some.inj hp).symm⟩
    · rw [List.getElem?_eq_none (by simpa using hi)] at hp
      exact absurd hp (by simp)
  have hone : ∀ (i : ℕ) a, (List.replicate 41 (1 : ℝ))[i]? = some a → a = 1 := by
    intro i a ha
    rw [List.getElem?_replicate] at ha
    split_ifs at ha
    exact (Option.some.inj ha).symm
  have hcast : ∀ {x y : ℕ}, x ≠ y → (1 : ℝ) ≤ ((x : ℝ) - y) ^ 2 := by
    intro x y h
    have h1 : (1 : ℤ) ≤ ((x : ℤ) - y) ^ 2 := by
      have : (x : ℤ) - y ≠ 0 := by omega
      have := sq_nonneg ((x : ℤ) - y)
      have : ((x : ℤ) - y) ^ 2 ≠ 0 := by positivity
      omega
    exact_mod_cast h1
  have hfar : ∀ i j : ℕ, j < i → Apart (latticePoint i) 1 (latticePoint j) 1 := by
    intro i j hij
    refine Real.le_sqrt_of_sq_le ?_
    simp only [latticePoint, Fin.sum_univ_three, Matrix.cons_val_zero, Matrix.cons_val_one, Matrix.cons_val]
    rcases Nat.lt_or_ge (j / 8) (i / 8) with h | h
    · nlinarith [hcast h.ne', sq_nonneg (((i % 8 : ℕ) : ℝ) - (j % 8 : ℕ))]
    · have : i % 8 ≠ j % 8 := by omega
      nlinarith [hcast this, sq_nonneg (((i / 8 : ℕ) : ℝ) - (j / 8 : ℕ))]
  refine C41_every rfl (by rw [List.length_map, List.length_range, List.length_replicate]) ?_ ?_ ?_ ?_
  · intro p hp
    obtain ⟨i, hi, rfl⟩ := List.mem_map.1 hp
    rw [List.mem_range] at hi
    have h1 : ((i % 8 : ℕ) : ℝ) ≤ 7 := by exact_mod_cast (by omega : i % 8 ≤ 7)
    have h2 : ((i / 8 : ℕ) : ℝ) ≤ 5 := by exact_mod_cast (by omega : i / 8 ≤ 5)
    have h3 : (0 : ℝ) ≤ ((i % 8 : ℕ) : ℝ) := Nat.cast_nonneg _
    have h4 : (0 : ℝ) ≤ ((i / 8 : ℕ) : ℝ) := Nat.cast_nonneg _
    intro c
    fin_cases c
    · left; simp only [latticePoint, Matrix.cons_val_zero, Fin.zero_eta]; constructor <;> linarith
    · right; simp [latticePoint]
    · left; simp only [latticePoint, Matrix.cons_val, Fin.reduceFinMk]; constructor <;> linarith
  · intro i j p q a b hij hp ha hq hb
    rw [(hget i p hp).2, (hget j q hq).2, hone i a ha, hone j b hb]
    exact hfar i j hij
  · intro i j p q a b hp ha hq
    exact absurd hq (by simp)
  · refine ⟨latticePoint 1, List.mem_map.2 ⟨1, by simp, rfl⟩, latticePoint 0, List.mem_map.2 ⟨0, by simp, rfl⟩, ?_⟩
    have := hfar 1 0 (by norm_num)
    rw [Apart] at this
    intro e
    rw [e] at this
    norm_num at this

example := C41_setup5 setup5_finishes.choose_spec.1 setup5_finishes.choose_spec.2

/-! ## C42: dumbbells -/

/-- **C42**. Whatever numbers are drawn, a placement that finishes gives one dumbbell for each requested size;
its beads are in the box and at the requested separation, in the requested direction where one is given;
beads of different dumbbells do not overlap, and no bead overlaps a sphere. -/
theorem C42_valid {fuel k k' : ℕ} {w : ℕ → ℝ} {A : DumbArgs} {ds : List (Vec3 × Vec3)}
    (hw : Stream w) (hbox : ∀ c, A.bl c ≤ A.tr c) (h : randomise_dumbbells fuel w k A = .ok (ds, k')) :
    ds.length = A.sizes.length ∧
    (∀ d ∈ ds, ∀ e, InBox A.bl A.tr (beadOf d e)) ∧
    (∀ d ∈ ds, len d.2 = |A.dx| ∧
      (∀ t, A.theta = some t → d.2 2 = A.dx * Real.cos t) ∧
      ∀ p, A.phi = some p → d.2 0 * Real.sin p = d.2 1 * Real.cos p) ∧
    (∀ (i j : ℕ) d d' a b e e', i ≠ j → ds[i]? = some d → A.sizes[i]? = some a → ds[j]? = some d' →
      A.sizes[j]? = some b → Apart (beadOf d e) a (beadOf d' e') b) ∧
    ∀ (i j : ℕ) d a e q b, ds[i]? = some d → A.sizes[i]? = some a → A.spherePos[j]? = some q →
      A.sphereSizes[j]? = some b → Apart (beadOf d e) a q b := by
  obtain ⟨⟨out, k1⟩, h1, h2⟩ := bind_ok.1 h
  obtain ⟨-, -, h3⟩ := bind_ok.1 h2
  obtain ⟨new, e1, e2, e3⟩ := placeDumbbells_ok h1
  have hds : ds = new.map (fun d => (fun c => 0.5 * (d.1 c + d.2 c), fun c => d.2 c - d.1 c)) := by
    have e := congrArg Prod.fst (ok_pure h3)
    dsimp only at e
    rw [← e, e2]; rfl
  have hend : ∀ (b1 b2 : Vec3), beadOf (fun c => 0.5 * (b1 c + b2 c), fun c => b2 c - b1 c) false = b1 ∧
      beadOf (fun c => 0.5 * (b1 c + b2 c), fun c => b2 c - b1 c) true = b2 := by
    intro b1 b2
    constructor <;> funext c <;> simp only [beadOf, if_true, Bool.false_eq_true, if_false] <;> ring
  have get : ∀ (i : ℕ) d, ds[i]? = some d → ∃ b1 b2 a, new[i]? = some (b1, b2) ∧ A.sizes[i]? = some a ∧
      GoodPair w A (beadList new) i a b1 b2 ∧ beadOf d false = b1 ∧ beadOf d true = b2 ∧
      d.2 = fun c => b2 c - b1 c := by
    intro i d hd
    have hi : i < A.sizes.length := by
      by_contra hge
      rw [List.getElem?_eq_none (by rw [hds, List.length_map]; omega)] at hd
      exact absurd hd (by simp)
    obtain ⟨⟨b1, b2⟩, a, q1, q2, q3⟩ := e3 i hi
    rw [hds, List.getElem?_map, q1] at hd
    obtain rfl := Option.some.inj hd
    refine ⟨b1, b2, a, q1, q2, ?_, (hend b1 b2).1, (hend b1 b2).2, rfl⟩
    simpa using q3
  have side : ∀ (i : ℕ) d a e, ds[i]? = some d → A.sizes[i]? = some a →
      Clear A (beadList new) i a (beadOf d e) := by
    intro i d a e hd ha
    obtain ⟨b1, b2, a', -, q2, q3, q4, q5, -⟩ := get i d hd
    rw [ha] at q2
    obtain rfl := Option.some.inj q2
    cases e with
    | false => rw [q4]; exact q3.first
    | true => rw [q5]; exact q3.second
  have lower : ∀ (i j : ℕ) d d' a b e e', j < i → ds[i]? = some d → A.sizes[i]? = some a → ds[j]? = some d' →
      A.sizes[j]? = some b → Apart (beadOf d e) a (beadOf d' e') b := by
    intro i j d d' a b e e' hij hd ha hd' hb
    obtain ⟨b1, b2, a', r1, -, -, r4, r5, -⟩ := get j d' hd'
    have hc := (side i d a e hd ha).beads
    cases e' with
    | false =>
      obtain ⟨q, b', q1, q2, q3⟩ := hc (2 * j) (by omega)
      rw [(beadList_get new j).1, r1] at q1
      rw [show 2 * j / 2 = j by omega, hb] at q2
      obtain rfl := Option.some.inj q1
      obtain rfl := Option.some.inj q2
      rw [r4]; exact q3
    | true =>
      obtain ⟨q, b', q1, q2, q3⟩ := hc (2 * j + 1) (by omega)
      rw [(beadList_get new j).2, r1] at q1
      rw [show (2 * j + 1) / 2 = j by omega, hb] at q2
      obtain rfl := Option.some.inj q1
      obtain rfl := Option.some.inj q2
      rw [r5]; exact q3
  have mem : ∀ d ∈ ds, ∃ i : ℕ, ds[i]? = some d := fun d hd => List.getElem?_of_mem hd
  refine ⟨by rw [hds, List.length_map, e1], fun d hd e => ?_, fun d hd => ?_, ?_, ?_⟩
  · obtain ⟨i, hi⟩ := mem d hd
    obtain ⟨b1, b2, a, -, -, q3, q4, q5, -⟩ := get i d hi
    cases e with
    | false =>
      obtain ⟨k0, hk⟩ := q3.box1
      rw [q4, hk]; exact inBox_random hw k0 hbox
    | true => rw [q5]; exact q3.box2
  · obtain ⟨i, hi⟩ := mem d hd
    obtain ⟨b1, b2, a, -, -, q3, -, -, q6⟩ := get i d hi
    obtain ⟨th, ph, hb, ht, hp⟩ := q3.dir
    have hdelta : d.2 = fun c => A.dx * (![Real.sin th * Real.cos ph, Real.sin th * Real.sin ph,
        Real.cos th] : Vec3) c := by
      rw [q6, hb]; funext c; simp [bead2At]
    refine ⟨?_, fun t h => ?_, fun p h => ?_⟩
    · rw [q6, hb]; exact bead2_gap b1 A.dx th ph
    · rw [hdelta, ← ht t h]; simp
    · rw [hdelta, ← hp p h]; simp; ring
  · intro i j d d' a b e e' hij hd ha hd' hb
    rcases Nat.lt_or_gt_of_ne hij with hl | hl
    · exact apart_comm.1 (lower j i d' d b a e' e hl hd' hb hd ha)
    · exact lower i j d d' a b e e' hl hd ha hd' hb
  · intro i j d a e q b hd ha hq hb
    have hj : j < A.sphereSizes.length := by
      by_contra hge
      rw [List.getElem?_eq_none (by omega)] at hb
      exact absurd hb (by simp)
    obtain ⟨q', b', q1, q2, q3⟩ := (side i d a e hd ha).spheres j hj
    rw [hq] at q1; rw [hb] at q2
    obtain rfl := Option.some.inj q1
    obtain rfl := Option.some.inj q2
    exact q3

/-- **C42** (the bound on rounds is harmless). -/
theorem C42_definite {fuel fuel' k : ℕ} {w : ℕ → ℝ} {A : DumbArgs}
    (h : randomise_dumbbells fuel w k A ≠ .error .unfinished) (hf : fuel ≤ fuel') :
    randomise_dumbbells fuel' w k A = randomise_dumbbells fuel w k A := by
  obtain ⟨m, rfl⟩ := Nat.exists_eq_add_of_le hf
  exact randomise_dumbbells_mono h

/-- **C42** (error branch). If a sphere has a size but no position, placement of at least one dumbbell stops
with an exception rather than ignoring that sphere. -/
theorem C42_missing_position {fuel k : ℕ} {w : ℕ → ℝ} {A : DumbArgs} (hr : A.sizes ≠ [])
    (hlen : A.spherePos.length < A.sphereSizes.length) :
    randomise_dumbbells (fuel + 1) w k A = .error .index := by
  obtain ⟨a, rest, hA⟩ := List.exists_cons_of_ne_nil hr
  have e : A.countSpheres (random_point_in_box w k A.bl A.tr) a 0 = .error .index :=
    countClose_missing 0 (j := A.spherePos.length) hlen (.inl (by simp))
  simp only [randomise_dumbbells, hA, placeDumbbells, proposeDumbbell, DumbArgs.countBoth, e, bind, Except.bind]

/-- **C42** (the two beads of one dumbbell are not checked). They overlap exactly when the requested
separation is less than two bead radii. -/
theorem C42_own_beads {fuel k k' : ℕ} {w : ℕ → ℝ} {A : DumbArgs} {ds : List (Vec3 × Vec3)}
    (hw : Stream w) (hbox : ∀ c, A.bl c ≤ A.tr c) (h : randomise_dumbbells fuel w k A = .ok (ds, k'))
    {d : Vec3 × Vec3} (hd : d ∈ ds) (a : ℝ) :
    Apart (beadOf d true) a (beadOf d false) a ↔ 2 * a ≤ |A.dx| := by
  have := ((C42_valid hw hbox h).2.2.1 d hd).1
  have e : gap (beadOf d true) (beadOf d false) = len d.2 := by
    simp only [gap, beadOf, if_true, Bool.false_eq_true, if_false]
    congr 1; funext c; ring
  rw [Apart, e, this, two_mul]

/-- **C42** (the shipped random setup). In position setup 6 the wall spheres are not passed to the placement,
yet no bead can overlap a wall: the box keeps every bead clear of them. -/
theorem C42_setup6 {fuel k k' : ℕ} {w : ℕ → ℝ} {ds : List (Vec3 × Vec3)} (hw : Stream w)
    (h : randomise_dumbbells fuel w k setup6Args = .ok (ds, k')) :
    ds.length = 200 ∧
    (∀ d ∈ ds, len d.2 = 2 ∧ d.2 1 = 0 ∧ ∀ e, beadOf d e 1 = 0) ∧
    (∀ (i j : ℕ) d d' e e', i ≠ j → ds[i]? = some d → ds[j]? = some d' → 0.2 ≤ gap (beadOf d e) (beadOf d' e')) ∧
    ∀ d ∈ ds, ∀ e, ∀ q ∈ setup6Walls, Apart (beadOf d e) 0.1 q 1 := by
  have hbox : ∀ c, setup6Args.bl c ≤ setup6Args.tr c := by
    intro c; fin_cases c <;> (simp [setup6Args]; try norm_num)
  obtain ⟨h1, h2, h3, h4, -⟩ := C42_valid hw hbox h
  clear h
  have hs : setup6Args.sizes = List.replicate 200 0.1 := rfl
  have hdx : setup6Args.dx = 2 := rfl
  have hbl : setup6Args.bl = ![-17, 0, 1 + 2 * 0.1] := rfl
  have htr : setup6Args.tr = ![17, 0, 10 - 2 * 0.1] := rfl
  rw [hs, List.length_replicate] at h1
  rw [hs] at h4
  rw [hdx] at h3
  rw [hbl, htr] at h2
  refine ⟨h1, fun d hd => ?_, fun i j d d' e e' hij hd hd' => ?_,
    fun d hd e q hq => ?_⟩
  · obtain ⟨q1, -, q3⟩ := h3 d hd
    refine ⟨by rw [q1]; norm_num, ?_, fun e => ?_⟩
    · have := q3 0 rfl
      simpa using this.symm
    · have := h2 d hd e 1
      simp only [Matrix.cons_val_one, Matrix.cons_val_zero] at this
      exact le_antisymm this.2 this.1
  · have size : ∀ (m : ℕ) (x : Vec3 × Vec3), ds[m]? = some x → (List.replicate 200 (0.1 : ℝ))[m]? = some 0.1 := by
      intro m x hx
      have hm : m < 200 := by
        by_contra hge
        rw [List.getElem?_eq_none (by omega)] at hx
        exact absurd hx (by simp)
      rw [List.getElem?_replicate, if_pos hm]
    have := h4 i j d d' 0.1 0.1 e e' hij hd (size i d hd) hd' (size j d' hd')
    rw [Apart] at this
    linarith
  · have hz := h2 d hd e 2
    simp only [Matrix.cons_val] at hz
    clear hs h4
    have hq2 : q 2 = 0 ∨ q 2 = 11 := by
      simp only [setup6Walls, List.mem_append, List.mem_map] at hq
      rcases hq with ⟨i, -, rfl⟩ | ⟨i, -, rfl⟩
      · left; simp
      · right; simp
    clear hq
    refine Real.le_sqrt_of_sq_le ?_
    rw [Fin.sum_univ_three]
    have h0 := sq_nonneg (beadOf d e 0 - q 0)
    have h1 := sq_nonneg (beadOf d e 1 - q 1)
    have : (1.2 : ℝ) ^ 2 ≤ (beadOf d e 2 - q 2) ^ 2 := by
      rcases hq2 with hq2 | hq2 <;> rw [hq2]
      · nlinarith [hz.1]
      · nlinarith [hz.2]
    nlinarith

/-! ### Examples -/

/-- Two upright dumbbells of unit beads beside a sphere of radius 2. -/
noncomputable def demoArgs : DumbArgs where
  bl := fun _ => 0
  tr := fun _ => 10
  sizes := [1, 1]
  dx := 3
  theta := some 0
  phi := some 0
  sphereSizes := [2]
  spherePos := [fun _ => -10]

theorem demo_apart {p q : Vec3} {a b : ℝ} (h : (a + b) ^ 2 ≤ ∑ c, (p c - q c) ^ 2) : Apart p a q b :=
  Real.le_sqrt_of_sq_le h

theorem demo_dumbbells : ∃ r, randomise_dumbbells 1 demoStream 0 demoArgs = .ok r := by
  have p0 : random_point_in_box demoStream 0 (fun _ => 0) (fun _ => 10) = ![0, 0, 0] := by
    funext c; fin_cases c <;> simp [random_point_in_box, demoStream]
  have p1 : random_point_in_box demoStream 3 (fun _ => 0) (fun _ => 10) = ![5, 5, 5] := by
    funext c; fin_cases c <;> simp [random_point_in_box, demoStream] <;> norm_num
  have b0 : bead2At ![0, 0, 0] 3 0 0 = ![0, 0, 3] := by
    funext c; fin_cases c <;> simp [bead2At]
  have b1 : bead2At ![5, 5, 5] 3 0 0 = ![5, 5, 8] := by
    funext c; fin_cases c <;> simp [bead2At]; norm_num
  have i0 : demoArgs.inBox ![0, 0, 3] = true := by
    simp [DumbArgs.inBox, demoArgs, Fin.forall_fin_succ]; norm_num
  have i1 : demoArgs.inBox ![5, 5, 8] = true := by
    simp [DumbArgs.inBox, demoArgs, Fin.forall_fin_succ]; norm_num
  have o1 : Apart ![0, 0, 0] 1 (fun _ => -10) 2 := demo_apart (by
    simp [Fin.sum_univ_three]; norm_num)
  have o2 : Apart ![0, 0, 3] 1 (fun _ => -10) 2 := demo_apart (by
    simp [Fin.sum_univ_three]; norm_num)
  have o3 : Apart ![5, 5, 5] 1 (fun _ => -10) 2 := demo_apart (by
    simp [Fin.sum_univ_three]; norm_num)
  have o4 : Apart ![5, 5, 8] 1 (fun _ => -10) 2 := demo_apart (by
    simp [Fin.sum_univ_three]; norm_num)
  have o5 : Apart ![5, 5, 5] 1 ![0, 0, 0] 1 := demo_apart (by
    simp [Fin.sum_univ_three]; norm_num)
  have o6 : Apart ![5, 5, 5] 1 ![0, 0, 3] 1 := demo_apart (by
    simp [Fin.sum_univ_three]; norm_num)
  have o7 : Apart ![5, 5, 8] 1 ![0, 0, 0] 1 := demo_apart (by
    simp [Fin.sum_univ_three]; norm_num)
  have o8 : Apart ![5, 5, 8] 1 ![0, 0, 3] 1 := demo_apart (by
    simp [Fin.sum_univ_three]; norm_num)
  have sph : ∀ {p : Vec3}, Apart p 1 (fun _ => -10) 2 → ∀ j < demoArgs.sphereSizes.length, ∃ q b,
      demoArgs.spherePos[j]? = some q ∧ demoArgs.sphereSizes[j]? = some b ∧ Apart p 1 q b := by
    intro p hp j hj
    obtain rfl : j = 0 := by simpa [demoArgs] using hj
    exact ⟨_, _, rfl, rfl, hp⟩
  have bds : ∀ {p : Vec3}, Apart p 1 ![0, 0, 0] 1 → Apart p 1 ![0, 0, 3] 1 → ∀ j < 2 * 1, ∃ q b,
      [(![0, 0, 0] : Vec3), ![0, 0, 3]][j]? = some q ∧ demoArgs.sizes[j / 2]? = some b ∧ Apart p 1 q b := by
    intro p h1 h2 j hj
    obtain rfl | rfl : j = 0 ∨ j = 1 := by omega
    · exact ⟨_, _, rfl, rfl, h1⟩
    · exact ⟨_, _, rfl, rfl, h2⟩
  have e0 : proposeDumbbell demoStream demoArgs [] 0 1 (0 + 1) 0 = .ok (![0, 0, 0], ![0, 0, 3], 3) :=
    proposeDumbbell_first p0 (th := 0) (ph := 0) rfl b0 ⟨sph o1, fun j hj => absurd hj (by omega)⟩ i0
      ⟨sph o2, fun j hj => absurd hj (by omega)⟩
  have e1 : proposeDumbbell demoStream demoArgs [![0, 0, 0], ![0, 0, 3]] 1 1 (0 + 1) 3
      = .ok (![5, 5, 5], ![5, 5, 8], 6) :=
    proposeDumbbell_first p1 (th := 0) (ph := 0) rfl b1 ⟨sph o3, bds o5 o6⟩ i1 ⟨sph o4, bds o7 o8⟩
  have e2 : placeDumbbells 1 demoStream demoArgs [1, 1] 0 [] [] 0 = .ok
      ([(fun c => 0.5 * ((![0, 0, 0] : Vec3) c + (![0, 0, 3] : Vec3) c),
          fun c => (![0, 0, 3] : Vec3) c - (![0, 0, 0] : Vec3) c),
        (fun c => 0.5 * ((![5, 5, 5] : Vec3) c + (![5, 5, 8] : Vec3) c),
          fun c => (![5, 5, 8] : Vec3) c - (![5, 5, 5] : Vec3) c)], 6) := by
    rw [placeDumbbells, e0]
    change placeDumbbells 1 demoStream demoArgs [1] 1 [![0, 0, 0], ![0, 0, 3]] _ 3 = _
    rw [placeDumbbells, e1]
    rfl
  have hm : ∀ l : List (Vec3 × Vec3), l.head? = some (fun c => 0.5 * ((![0, 0, 0] : Vec3) c + (![0, 0, 3] : Vec3) c),
      fun c => (![0, 0, 3] : Vec3) c - (![0, 0, 0] : Vec3) c) → minElementDistance (rebuiltBeads l) = .ok () := by
    intro l hl
    obtain ⟨t, rfl⟩ := List.head?_eq_some_iff.1 hl
    rw [minElementDistance, if_pos]
    · rfl
    · refine ⟨_, List.mem_cons_self .., _, List.mem_append_right _ (List.mem_cons_self ..), ?_⟩
      simp only [norm3, Pi.sub_apply, Matrix.cons_val_zero, Matrix.cons_val_one, Matrix.cons_val]
      norm_num
  rw [randomise_dumbbells]
  change ∃ r, (placeDumbbells 1 demoStream demoArgs [1, 1] 0 [] [] 0 >>= _) = _
  rw [e2]
  exact ⟨_, bind_ok.2 ⟨_, rfl, bind_ok.2 ⟨(), hm _ rfl, rfl⟩⟩⟩

/-- First beads of upright dumbbells in two rows of a hundred. -/
noncomputable def rowPoint (m : ℕ) : Vec3 := ![-17 + 0.3 * (m % 100 : ℕ), 0, 1.2 + 4 * (m / 100 : ℕ)]

/-- Their second beads. -/
noncomputable def rowPoint2 (m : ℕ) : Vec3 := ![-17 + 0.3 * (m % 100 : ℕ), 0, 3.2 + 4 * (m / 100 : ℕ)]

/-- The draws: three for the first bead, one for the angle. -/
noncomputable def rowStream : ℕ → ℝ := fun k =>
  if k / 4 < 200 then
    if k % 4 = 0 then share (-17) 17 (rowPoint (k / 4) 0)
    else if k % 4 = 2 then share (1 + 2 * 0.1) (10 - 2 * 0.1) (rowPoint (k / 4) 2) else 0
  else 0

theorem row_bounds {m : ℕ} (hm : m < 200) : (0 : ℝ) ≤ ((m % 100 : ℕ) : ℝ) ∧ ((m % 100 : ℕ) : ℝ) ≤ 99 ∧
    (0 : ℝ) ≤ ((m / 100 : ℕ) : ℝ) ∧ ((m / 100 : ℕ) : ℝ) ≤ 1 :=
  ⟨Nat.cast_nonneg _, by exact_mod_cast (by omega : m % 100 ≤ 99), Nat.cast_nonneg _,
    by exact_mod_cast (by omega : m / 100 ≤ 1)⟩

theorem row_share0 {m : ℕ} (hm : m < 200) : 0 ≤ share (-17) 17 (rowPoint m 0) ∧
    share (-17) 17 (rowPoint m 0) < 1 ∧
    -17 + share (-17) 17 (rowPoint m 0) * (17 - -17) = rowPoint m 0 := by
  have h := row_bounds hm
  refine share_spec (.inl ?_)
  simp only [rowPoint, Matrix.cons_val_zero]
  constructor <;> linarith

theorem row_share2 {m : ℕ} (hm : m < 200) : 0 ≤ share (1 + 2 * 0.1) (10 - 2 * 0.1) (rowPoint m 2) ∧
    share (1 + 2 * 0.1) (10 - 2 * 0.1) (rowPoint m 2) < 1 ∧
    (1 + 2 * 0.1) + share (1 + 2 * 0.1) (10 - 2 * 0.1) (rowPoint m 2) * ((10 - 2 * 0.1) - (1 + 2 * 0.1))
      = rowPoint m 2 := by
  have h := row_bounds hm
  refine share_spec (.inl ?_)
  simp only [rowPoint, Matrix.cons_val]
  constructor <;> linarith

theorem rowStream_ok : Stream rowStream := by
  intro k
  unfold rowStream
  by_cases h : k / 4 < 200
  · rw [if_pos h]
    split_ifs
    · exact ⟨(row_share0 h).1, (row_share0 h).2.1⟩
    · exact ⟨(row_share2 h).1, (row_share2 h).2.1⟩
    · norm_num
  · rw [if_neg h]; norm_num

theorem row_draws {m : ℕ} (hm : m < 200) :
    random_point_in_box rowStream (0 + 4 * m) ![-17, 0, 1 + 2 * 0.1] ![17, 0, 10 - 2 * 0.1] = rowPoint m := by
  have d0 : rowStream (4 * m) = share (-17) 17 (rowPoint m 0) := by
    simp only [rowStream]
    rw [show 4 * m / 4 = m by omega, if_pos hm, if_pos (by omega)]
  have d2 : rowStream (4 * m + 2) = share (1 + 2 * 0.1) (10 - 2 * 0.1) (rowPoint m 2) := by
    simp only [rowStream]
    rw [show (4 * m + 2) / 4 = m by omega, if_pos hm, if_neg (by omega), if_pos (by omega)]
  funext c
  fin_cases c
  · simp only [random_point_in_box, Fin.zero_eta, Matrix.cons_val_zero, Nat.zero_add, Nat.add_zero, d0]
    exact (row_share0 hm).2.2
  · simp [random_point_in_box, rowPoint]
  · simp only [random_point_in_box, Fin.reduceFinMk, Matrix.cons_val, Nat.zero_add, d2]
    exact (row_share2 hm).2.2

theorem row_angles {m : ℕ} : drawAngles rowStream none (some 0) (0 + 4 * m + 3) = (0, 0, 0 + 4 * (m + 1)) := by
  have d3 : rowStream (0 + 4 * m + 3) = 0 := by
    simp only [rowStream]
    rw [if_neg (by omega : ¬ (0 + 4 * m + 3) % 4 = 0), if_neg (by omega : ¬ (0 + 4 * m + 3) % 4 = 2), ite_self]
  simp only [drawAngles, d3, zero_mul]
  rw [show 0 + 4 * m + 3 + 1 = 0 + 4 * (m + 1) by ring]

theorem row_second (m : ℕ) : bead2At (rowPoint m) 2 0 0 = rowPoint2 m := by
  funext c
  fin_cases c
  · simp [bead2At, rowPoint, rowPoint2]
  · simp [bead2At, rowPoint, rowPoint2]
  · simp [bead2At, rowPoint, rowPoint2]; ring

theorem row_apart {i j : ℕ} (hij : i ≠ j) (z z' : ℝ)
    (hz : i / 100 = j / 100 ∨ 0.04 ≤ (z - z') ^ 2) :
    Apart ![-17 + 0.3 * (i % 100 : ℕ), 0, z] 0.1 ![-17 + 0.3 * (j % 100 : ℕ), 0, z'] 0.1 := by
  refine Real.le_sqrt_of_sq_le ?_
  simp only [Fin.sum_univ_three, Matrix.cons_val_zero, Matrix.cons_val_one, Matrix.cons_val]
  rcases hz with h | h
  · have hne : ((i % 100 : ℕ) : ℤ) - (j % 100 : ℕ) ≠ 0 := by omega
    have h1 : (1 : ℤ) ≤ (((i % 100 : ℕ) : ℤ) - (j % 100 : ℕ)) ^ 2 := by
      have := sq_nonneg (((i % 100 : ℕ) : ℤ) - (j % 100 : ℕ))
      have : (((i % 100 : ℕ) : ℤ) - (j % 100 : ℕ)) ^ 2 ≠ 0 := pow_ne_zero 2 hne
      omega
    have h2 : (1 : ℝ) ≤ (((i % 100 : ℕ) : ℝ) - (j % 100 : ℕ)) ^ 2 := by exact_mod_cast h1
    nlinarith [sq_nonneg (z - z')]
  · nlinarith [sq_nonneg (((i % 100 : ℕ) : ℝ) - (j % 100 : ℕ))]

theorem row_levels {i j : ℕ} (h : i / 100 ≠ j / 100) (hi : i < 200) (hj : j < 200) (u v : ℝ)
    (hu : u = 1.2 ∨ u = 3.2) (hv : v = 1.2 ∨ v = 3.2) :
    0.04 ≤ (u + 4 * (i / 100 : ℕ) - (v + 4 * (j / 100 : ℕ))) ^ 2 := by
  have : (i / 100 = 0 ∧ j / 100 = 1) ∨ (i / 100 = 1 ∧ j / 100 = 0) := by omega
  rcases this with ⟨e1, e2⟩ | ⟨e1, e2⟩ <;> rw [e1, e2] <;> rcases hu with rfl | rfl <;>
    rcases hv with rfl | rfl <;> norm_num

/-- Setup 6 can finish. -/
theorem setup6_finishes : ∃ r, randomise_dumbbells 1 rowStream 0 setup6Args = .ok r := by
  have hs : setup6Args.sizes = List.replicate 200 0.1 := rfl
  have hsp : setup6Args.sphereSizes = [] := rfl
  have hget : ∀ (i : ℕ) d, ((List.range 200).map fun m => (rowPoint m, rowPoint2 m))[i]? = some d →
      i < 200 ∧ d = (rowPoint i, rowPoint2 i) := by
    intro i p hp
    rw [List.getElem?_map] at hp
    by_cases hi : i < 200
    · rw [List.getElem?_range hi] at hp
      exact ⟨hi, (Option.some.inj hp).symm⟩
    · rw [List.getElem?_eq_none (by rw [List.length_range]; omega)] at hp
      exact absurd hp (by simp)
  have hget' : ∀ i < 200, ((List.range 200).map fun m => (rowPoint m, rowPoint2 m))[i]?
      = some (rowPoint i, rowPoint2 i) := by
    intro i hi
    rw [List.getElem?_map, List.getElem?_range hi]; rfl
  have clear : ∀ i < 200, ∀ u : ℝ, (u = 1.2 ∨ u = 3.2) →
      Clear setup6Args ([] ++ beadList ((List.range 200).map fun m => (rowPoint m, rowPoint2 m))) (0 + i) 0.1
        ![-17 + 0.3 * (i % 100 : ℕ), 0, u + 4 * (i / 100 : ℕ)] := by
    intro i hi u hu
    refine ⟨fun j hj => absurd hj (by rw [hsp]; simp), fun j hj => ?_⟩
    rw [List.nil_append, hs]
    have hj2 : j / 2 < 200 := by omega
    have hsz : (List.replicate 200 (0.1 : ℝ))[j / 2]? = some 0.1 := by
      rw [List.getElem?_replicate, if_pos hj2]
    have hne : i ≠ j / 2 := by omega
    rcases Nat.mod_two_eq_zero_or_one j with h | h
    · refine ⟨rowPoint (j / 2), 0.1, ?_, hsz, row_apart hne _ _ ?_⟩
      · have := (beadList_get ((List.range 200).map fun m => (rowPoint m, rowPoint2 m)) (j / 2)).1
        rw [hget' _ hj2, show 2 * (j / 2) = j by omega] at this
        exact this
      · exact or_iff_not_imp_left.2 fun e => row_levels e hi hj2 u 1.2 hu (.inl rfl)
    · refine ⟨rowPoint2 (j / 2), 0.1, ?_, hsz, row_apart hne _ _ ?_⟩
      · have := (beadList_get ((List.range 200).map fun m => (rowPoint m, rowPoint2 m)) (j / 2)).2
        rw [hget' _ hj2, show 2 * (j / 2) + 1 = j by omega] at this
        exact this
      · exact or_iff_not_imp_left.2 fun e => row_levels e hi hj2 u 3.2 hu (.inr rfl)
  have e := placeDumbbells_script (w := rowStream) (A := setup6Args) (fuel := 0) (D := 4)
    ((List.range 200).map fun m => (rowPoint m, rowPoint2 m)) (List.replicate 200 0.1) 0 0 [] []
    (by rw [List.length_map, List.length_range, List.length_replicate]) (fun m d hd => ?_)
    (fun m d a hd ha => ?_) rfl
  · rw [randomise_dumbbells, hs]
    refine ⟨_, bind_ok.2 ⟨_, e, bind_ok.2 ⟨(), ?_, rfl⟩⟩⟩
    rw [minElementDistance, if_pos]
    · rfl
    · have m0 : (rowPoint 0, rowPoint2 0) ∈ (List.range 200).map fun m => (rowPoint m, rowPoint2 m) :=
        List.mem_map.2 ⟨0, by rw [List.mem_range]; omega, rfl⟩
      refine ⟨_, List.mem_append_left _ (List.mem_map.2 ⟨_, List.mem_append_right _ (List.mem_map.2 ⟨_, m0, rfl⟩),
        rfl⟩), _, List.mem_append_right _ (List.mem_map.2 ⟨_, List.mem_append_right _ (List.mem_map.2 ⟨_, m0, rfl⟩),
        rfl⟩), ?_⟩
      simp only [norm3, Pi.sub_apply, rowPoint, rowPoint2, Matrix.cons_val_zero, Matrix.cons_val_one,
        Matrix.cons_val]
      norm_num
  · obtain ⟨hm, rfl⟩ := hget m d hd
    refine ⟨row_draws hm, ?_, 0, 0, row_angles, row_second m⟩
    have h := row_bounds hm
    refine decide_eq_true ⟨fun c => ?_, fun c => ?_⟩
    · change rowPoint2 m c ≥ (![-17, 0, 1 + 2 * 0.1] : Vec3) c
      fin_cases c <;> simp [rowPoint2] <;> linarith
    · change rowPoint2 m c ≤ (![17, 0, 10 - 2 * 0.1] : Vec3) c
      fin_cases c <;> simp [rowPoint2] <;> linarith
  · obtain ⟨hm, rfl⟩ := hget m d hd
    rw [List.getElem?_replicate, if_pos hm] at ha
    obtain rfl := Option.some.inj ha
    exact ⟨clear m hm 1.2 (.inl rfl), clear m hm 3.2 (.inr rfl)⟩

example := C42_setup6 rowStream_ok setup6_finishes.choose_spec
example := C42_valid demoStream_ok (fun _ => by norm_num [demoArgs]) demo_dumbbells.choose_spec
/-- In the shipped setup the beads are well within a dumbbell length; beads as large as that would overlap. -/
example : ∃ d ∈ setup6_finishes.choose.1, Apart (beadOf d true) 0.1 (beadOf d false) 0.1 ∧
    ¬ Apart (beadOf d true) 2 (beadOf d false) 2 := by
  have hbox : ∀ c, setup6Args.bl c ≤ setup6Args.tr c := by
    intro c; fin_cases c <;> (simp [setup6Args]; try norm_num)
  obtain ⟨d, hd⟩ := List.exists_mem_of_length_pos (l := setup6_finishes.choose.1)
    (lt_of_lt_of_eq (by norm_num : 0 < 200) (C42_setup6 rowStream_ok setup6_finishes.choose_spec).1.symm)
  have h := C42_own_beads rowStream_ok hbox setup6_finishes.choose_spec hd
  have hdx : setup6Args.dx = 2 := rfl
  refine ⟨d, hd, (h _).2 ?_, fun e => absurd ((h _).1 e) ?_⟩ <;> rw [hdx] <;> norm_num
example := C42_definite (fuel' := 7) (by rw [demo_dumbbells.choose_spec]; simp) (by norm_num)
example := C42_missing_position (fuel := 3) (k := 0) (w := demoStream) (A := { demoArgs with spherePos := [] })
  (by simp [demoArgs]) (by simp [demoArgs])

end SD
