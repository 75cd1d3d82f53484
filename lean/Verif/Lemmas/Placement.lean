import Verif.Model.Placement
import Verif.Spec.Placement

/-!
Lemmas about the placement loops.
-/

set_option autoImplicit false

namespace SD

open Spec

theorem norm3_sub_eq_gap (p q : Vec3) : norm3 (p - q) = gap p q := by
  simp only [norm3, gap, len, Fin.sum_univ_three, Pi.sub_apply]

theorem overlaps_false {p q : Vec3} {a b : ℝ} : overlaps p q a b = false ↔ Apart p a q b := by
  simp [overlaps, Apart, norm3_sub_eq_gap]

theorem gap_comm (p q : Fin 3 → ℝ) : gap p q = gap q p := by
  simp only [gap, len]
  congr 1
  exact Finset.sum_congr rfl fun c _ => by ring

theorem apart_comm {p q : Fin 3 → ℝ} {a b : ℝ} : Apart p a q b ↔ Apart q b p a := by
  simp only [Apart, gap_comm p q, add_comm a b]

theorem inBox_random {w : ℕ → ℝ} (hw : Stream w) (k : ℕ) {bl tr : Vec3} (h : ∀ c, bl c ≤ tr c) :
    InBox bl tr (random_point_in_box w k bl tr) := by
  intro c
  have h1 := hw (k + (c : ℕ))
  have h2 := h c
  simp only [random_point_in_box]
  constructor
  · nlinarith [mul_nonneg h1.1 (sub_nonneg.2 h2)]
  · nlinarith [mul_nonneg (sub_nonneg.2 h1.2.le) (sub_nonneg.2 h2)]

theorem bind_ok {ε α β : Type} {x : Except ε α} {f : α → Except ε β} {b : β} :
    (x >>= f) = .ok b ↔ ∃ a, x = .ok a ∧ f a = .ok b := by
  cases x with
  | error e => simp [bind, Except.bind]
  | ok a => simp [bind, Except.bind]

theorem bind_error {ε α β : Type} {x : Except ε α} {f : α → Except ε β} {e : ε} :
    (x >>= f) = .error e ↔ x = .error e ∨ ∃ a, x = .ok a ∧ f a = .error e := by
  cases x with
  | error e => simp [bind, Except.bind]
  | ok a => simp [bind, Except.bind]

/-- One more round of the counting loop. -/
theorem countClose_succ (p : Vec3) (a : ℝ) (pos : ℕ → Option Vec3) (size : ℕ → Option ℝ) (n c : ℕ) :
    countClose p a pos size (n + 1) c = countClose p a pos size n c >>= fun c =>
      match pos n, size n with
      | some q, some b => pure (if overlaps p q a b then c + 1 else c)
      | _, _ => throw PlaceError.index := by
  unfold countClose
  rw [List.range_succ, List.foldlM_append]
  refine congrArg _ (funext fun c => ?_)
  simp only [List.foldlM_cons, List.foldlM_nil]
  cases pos n <;> cases size n <;> rfl

theorem countClose_zero (p : Vec3) (a : ℝ) (pos : ℕ → Option Vec3) (size : ℕ → Option ℝ) (c : ℕ) :
    countClose p a pos size 0 c = .ok c := rfl

/-- A completed count found every row, and is unchanged only if nothing overlaps. -/
theorem countClose_ok {p : Vec3} {a : ℝ} {pos : ℕ → Option Vec3} {size : ℕ → Option ℝ} {n c c' : ℕ}
    (h : countClose p a pos size n c = .ok c') :
    c ≤ c' ∧ ∀ j < n, ∃ q b, pos j = some q ∧ size j = some b ∧ (c' = c → Apart p a q b) := by
  induction n generalizing c' with
  | zero =>
    rw [countClose_zero] at h
    injection h with h
    exact ⟨h.le, fun j hj => absurd hj (Nat.not_lt_zero j)⟩
  | succ n ih =>
    rw [countClose_succ, bind_ok] at h
    obtain ⟨c1, h1, h2⟩ := h
    obtain ⟨i1, i2⟩ := ih h1
    rcases hq : pos n with _ | q <;> rcases hb : size n with _ | b <;> rw [hq, hb] at h2
    · exact absurd h2 (by simp [throw, throwThe, MonadExceptOf.throw])
    · exact absurd h2 (by simp [throw, throwThe, MonadExceptOf.throw])
    · exact absurd h2 (by simp [throw, throwThe, MonadExceptOf.throw])
    · have h2 : (if overlaps p q a b then c1 + 1 else c1) = c' := by
        simpa [pure, Except.pure] using h2
      have hc : c1 ≤ c' := by rw [← h2]; split_ifs <;> omega
      refine ⟨i1.trans hc, fun j hj => ?_⟩
      rcases Nat.lt_succ_iff_lt_or_eq.1 hj with hj | rfl
      · obtain ⟨q', b', e1, e2, e3⟩ := i2 j hj
        exact ⟨q', b', e1, e2, fun e => e3 (by omega)⟩
      · refine ⟨q, b, hq, hb, fun e => overlaps_false.1 ?_⟩
        by_contra ho
        rw [Bool.not_eq_false] at ho
        rw [if_pos ho] at h2
        omega

/-- The count goes through when every row exists. -/
theorem countClose_total {p : Vec3} {a : ℝ} {pos : ℕ → Option Vec3} {size : ℕ → Option ℝ} {n : ℕ} (c : ℕ)
    (h : ∀ j < n, pos j ≠ none ∧ size j ≠ none) : ∃ c', countClose p a pos size n c = .ok c' := by
  induction n with
  | zero => exact ⟨c, rfl⟩
  | succ n ih =>
    obtain ⟨c1, h1⟩ := ih fun j hj => h j (by omega)
    obtain ⟨q, hq⟩ := Option.ne_none_iff_exists'.1 (h n (by omega)).1
    obtain ⟨b, hb⟩ := Option.ne_none_iff_exists'.1 (h n (by omega)).2
    refine ⟨if overlaps p q a b then c1 + 1 else c1, ?_⟩
    rw [countClose_succ, bind_ok]
    exact ⟨c1, h1, by rw [hq, hb]; rfl⟩

/-- The count is unchanged when nothing overlaps. -/
theorem countClose_clear {p : Vec3} {a : ℝ} {pos : ℕ → Option Vec3} {size : ℕ → Option ℝ} {n : ℕ} (c : ℕ)
    (h : ∀ j < n, ∃ q b, pos j = some q ∧ size j = some b ∧ Apart p a q b) :
    countClose p a pos size n c = .ok c := by
  induction n with
  | zero => rfl
  | succ n ih =>
    obtain ⟨q, b, hq, hb, ha⟩ := h n (by omega)
    rw [countClose_succ, ih fun j hj => h j (by omega), hq, hb]
    simp [bind, Except.bind, pure, Except.pure, overlaps_false.2 ha]

/-- A missing row is an exception. -/
theorem countClose_missing {p : Vec3} {a : ℝ} {pos : ℕ → Option Vec3} {size : ℕ → Option ℝ} {n : ℕ} (c : ℕ)
    {j : ℕ} (hj : j < n) (h : pos j = none ∨ size j = none) :
    countClose p a pos size n c = .error .index := by
  have hnok : ∀ c', countClose p a pos size n c ≠ .ok c' := by
    intro c' hc
    obtain ⟨q, b, e1, e2, -⟩ := (countClose_ok hc).2 j hj
    rcases h with h | h
    · rw [h] at e1; exact absurd e1 (by simp)
    · rw [h] at e2; exact absurd e2 (by simp)
  have herr : ∀ m, (∃ c', countClose p a pos size m c = .ok c') ∨
      countClose p a pos size m c = .error .index := by
    intro m
    induction m with
    | zero => exact .inl ⟨c, rfl⟩
    | succ m ih =>
      rw [countClose_succ]
      rcases ih with ⟨c', h⟩ | h
      · rw [h]
        rcases pos m with _ | q <;> rcases size m with _ | b
        · exact .inr rfl
        · exact .inr rfl
        · exact .inr rfl
        · exact .inl ⟨_, rfl⟩
      · rw [h]; exact .inr rfl
  rcases herr n with ⟨c', h⟩ | h
  · exact absurd h (hnok c')
  · exact h

/-- The accepted proposal. -/
theorem proposeSphere_ok {w : ℕ → ℝ} {bl tr : Vec3} {out : List Vec3} {sizes : List ℝ} {a : ℝ} {n fuel k : ℕ}
    {p : Vec3} {k' : ℕ} (h : proposeSphere w bl tr out sizes a n fuel k = .ok (p, k')) :
    (∃ k0, p = random_point_in_box w k0 bl tr) ∧
      ∀ j < n, ∃ q b, out[j]? = some q ∧ sizes[j]? = some b ∧ Apart p a q b := by
  induction fuel generalizing k with
  | zero => exact absurd h (by simp [proposeSphere, throw, throwThe, MonadExceptOf.throw])
  | succ fuel ih =>
    rw [proposeSphere] at h
    obtain ⟨c, h1, h2⟩ := bind_ok.1 h
    by_cases hc : c = 0
    · rw [if_pos hc] at h2
      have h2 : (random_point_in_box w k bl tr, k + 3) = (p, k') := by
        simpa [pure, Except.pure] using h2
      have hp := congrArg Prod.fst h2
      dsimp only at hp
      refine ⟨⟨k, hp.symm⟩, fun j hj => ?_⟩
      obtain ⟨q, b, e1, e2, e3⟩ := (countClose_ok h1).2 j hj
      exact ⟨q, b, e1, e2, hp ▸ e3 hc⟩
    · rw [if_neg hc] at h2
      exact ih h2

/-- More rounds do not change an outcome. -/
theorem proposeSphere_mono {w : ℕ → ℝ} {bl tr : Vec3} {out : List Vec3} {sizes : List ℝ} {a : ℝ}
    {n fuel k m : ℕ} (h : proposeSphere w bl tr out sizes a n fuel k ≠ .error .unfinished) :
    proposeSphere w bl tr out sizes a n (fuel + m) k = proposeSphere w bl tr out sizes a n fuel k := by
  induction fuel generalizing k with
  | zero => exact absurd rfl h
  | succ fuel ih =>
    rw [show fuel + 1 + m = fuel + m + 1 by omega, proposeSphere]
    rw [proposeSphere] at h ⊢
    generalize countClose (random_point_in_box w k bl tr) a (fun j => out[j]?) (fun j => sizes[j]?) n 0 = x
      at h ⊢
    cases x with
    | error e => rfl
    | ok c =>
      simp only [bind, Except.bind] at h ⊢
      by_cases hc : c = 0
      · rw [if_pos hc, if_pos hc]
      · rw [if_neg hc] at h
        rw [if_neg hc, if_neg hc]
        exact ih h

/-- The loop over the spheres keeps what is there and adds one valid sphere per size. -/
theorem placeSpheres_ok {fuel : ℕ} {w : ℕ → ℝ} {bl tr : Vec3} {sizes : List ℝ} {current : ℕ} {rest : List ℝ}
    {i k k' : ℕ} {out out' : List Vec3}
    (h : placeSpheres fuel w bl tr sizes current rest i out k = .ok (out', k')) :
    ∃ new : List Vec3, out' = out ++ new ∧ new.length = rest.length ∧
      ∀ m < rest.length, ∃ p a, new[m]? = some p ∧ rest[m]? = some a ∧
        (∃ k0, p = random_point_in_box w k0 bl tr) ∧
        ∀ j < current + i + m, ∃ q b, (out ++ new)[j]? = some q ∧ sizes[j]? = some b ∧ Apart p a q b := by
  induction rest generalizing i out k with
  | nil =>
    have h : (out, k) = (out', k') := by simpa [placeSpheres, pure, Except.pure] using h
    exact ⟨[], by simpa using (congrArg Prod.fst h).symm, rfl, fun m hm => absurd hm (Nat.not_lt_zero m)⟩
  | cons a rest ih =>
    rw [placeSpheres] at h
    obtain ⟨⟨p, k1⟩, h1, h2⟩ := bind_ok.1 h
    obtain ⟨hp, ha⟩ := proposeSphere_ok h1
    obtain ⟨new, e1, e2, e3⟩ := ih h2
    refine ⟨p :: new, by simp [e1], by simp [e2], fun m hm => ?_⟩
    have happ : out ++ [p] ++ new = out ++ p :: new := by simp
    cases m with
    | zero =>
      refine ⟨p, a, rfl, rfl, hp, fun j hj => ?_⟩
      obtain ⟨q, b, q1, q2, q3⟩ := ha j (by simpa using hj)
      refine ⟨q, b, ?_, q2, q3⟩
      have hlt : j < out.length := by
        by_contra hge
        rw [List.getElem?_eq_none (by omega)] at q1
        exact absurd q1 (by simp)
      rw [List.getElem?_append_left hlt]; exact q1
    | succ m =>
      obtain ⟨p', a', q1, q2, q3, q4⟩ := e3 m (by simpa using hm)
      refine ⟨p', a', by simpa using q1, by simpa using q2, q3, fun j hj => ?_⟩
      rw [← happ]
      exact q4 j (by omega)

/-- More rounds do not change an outcome. -/
theorem placeSpheres_mono {fuel m : ℕ} {w : ℕ → ℝ} {bl tr : Vec3} {sizes : List ℝ} {current : ℕ}
    {rest : List ℝ} {i k : ℕ} {out : List Vec3}
    (h : placeSpheres fuel w bl tr sizes current rest i out k ≠ .error .unfinished) :
    placeSpheres (fuel + m) w bl tr sizes current rest i out k
      = placeSpheres fuel w bl tr sizes current rest i out k := by
  induction rest generalizing i out k with
  | nil => rfl
  | cons a rest ih =>
    rw [placeSpheres] at h
    rw [placeSpheres, placeSpheres]
    have h0 : proposeSphere w bl tr out sizes a (current + i) fuel k ≠ .error .unfinished := by
      intro e; rw [e] at h; exact h rfl
    rw [proposeSphere_mono h0]
    revert h
    cases proposeSphere w bl tr out sizes a (current + i) fuel k with
    | error e => exact fun _ => rfl
    | ok x => exact fun h => ih h

theorem randomise_spheres_mono {fuel m : ℕ} {w : ℕ → ℝ} {k : ℕ} {bl tr : Vec3} {rnd cur : List ℝ}
    {pos : List Vec3} (h : randomise_spheres fuel w k bl tr rnd cur pos ≠ .error .unfinished) :
    randomise_spheres (fuel + m) w k bl tr rnd cur pos = randomise_spheres fuel w k bl tr rnd cur pos := by
  unfold randomise_spheres at h ⊢
  dsimp only at h ⊢
  have h0 : placeSpheres fuel w bl tr (cur ++ rnd) cur.length rnd 0 pos k ≠ .error .unfinished := by
    intro e; rw [e] at h; exact h rfl
  rw [placeSpheres_mono h0]

theorem minElement_ok {pts : List Vec3} (h : minElementDistance pts = .ok ()) :
    ∃ p ∈ pts, ∃ q ∈ pts, gap p q ≠ 0 := by
  unfold minElementDistance at h
  by_cases hc : ∃ p ∈ pts, ∃ q ∈ pts, norm3 (p - q) ≠ 0
  · simpa only [norm3_sub_eq_gap] using hc
  · rw [if_neg hc] at h; exact absurd h (by simp [throw, throwThe, MonadExceptOf.throw])

theorem gap_self (p : Fin 3 → ℝ) : gap p p = 0 := by simp [gap, len]

/-! ## Dumbbells -/

theorem ok_pure {ε α : Type} {a b : α} (h : (pure a : Except ε α) = .ok b) : a = b := by
  simpa [pure, Except.pure] using h

/-- What a bead has been checked against. -/
structure Clear (A : DumbArgs) (beads : List Vec3) (i : ℕ) (a : ℝ) (p : Vec3) : Prop where
  spheres : ∀ j < A.sphereSizes.length, ∃ q b, A.spherePos[j]? = some q ∧ A.sphereSizes[j]? = some b ∧
    Apart p a q b
  beads : ∀ j < 2 * i, ∃ q b, beads[j]? = some q ∧ A.sizes[j / 2]? = some b ∧ Apart p a q b

/-- The two counting loops together. -/
theorem clear_of_counts {A : DumbArgs} {beads : List Vec3} {i c : ℕ} {a : ℝ} {p : Vec3}
    (h : A.countBoth beads i p a c = .ok 0) : Clear A beads i a p := by
  obtain ⟨c1, h1, h2⟩ := bind_ok.1 h
  by_cases h : c1 = 0
  · rw [if_pos h] at h2
    have k1 := countClose_ok h1
    have k2 := countClose_ok h2
    refine ⟨fun j hj => ?_, fun j hj => ?_⟩
    · obtain ⟨q, b, e1, e2, e3⟩ := k1.2 j hj
      exact ⟨q, b, e1, e2, e3 (by omega)⟩
    · obtain ⟨q, b, e1, e2, e3⟩ := k2.2 j hj
      exact ⟨q, b, e1, e2, e3 h.symm⟩
  · rw [if_neg h] at h2
    exact absurd (ok_pure h2) h

/-- Fixed angles are used as given. -/
theorem drawAngles_fixed (w : ℕ → ℝ) (theta phi : Option ℝ) (k : ℕ) :
    (∀ t, theta = some t → (drawAngles w theta phi k).1 = t) ∧
      ∀ p, phi = some p → (drawAngles w theta phi k).2.1 = p := by
  cases theta <;> cases phi <;> simp [drawAngles]

theorem tryBead2_ok {w : ℕ → ℝ} {A : DumbArgs} {beads : List Vec3} {i : ℕ} {a : ℝ} {b1 b2 : Vec3}
    {t c k k' : ℕ} (h : tryBead2 w A beads i a b1 t c k = .ok (some b2, k')) :
    Clear A beads i a b2 ∧ InBox A.bl A.tr b2 ∧
      ∃ th ph, b2 = bead2At b1 A.dx th ph ∧ (∀ x, A.theta = some x → th = x) ∧ ∀ x, A.phi = some x → ph = x := by
  induction t generalizing c k with
  | zero =>
    rw [tryBead2] at h
    exact absurd (congrArg Prod.fst (ok_pure h)) (by simp)
  | succ t ih =>
    rw [tryBead2] at h
    have hf := drawAngles_fixed w A.theta A.phi k
    generalize drawAngles w A.theta A.phi k = d at h hf
    obtain ⟨th, ph, k1⟩ := d
    dsimp only at h hf
    by_cases hb : A.inBox (bead2At b1 A.dx th ph) = true
    · rw [if_pos hb] at h
      obtain ⟨c2, h2, h⟩ := bind_ok.1 h
      by_cases hc : c2 = 0
      · rw [if_pos hc] at h
        have e := Option.some.inj (congrArg Prod.fst (ok_pure h))
        subst hc
        rw [← e]
        refine ⟨clear_of_counts h2, ?_, th, ph, rfl, hf⟩
        have := of_decide_eq_true hb
        exact fun c => ⟨this.1 c, this.2 c⟩
      · rw [if_neg hc] at h; exact ih h
    · rw [if_neg hb] at h; exact ih h

/-- What is known of an accepted pair of beads. -/
structure GoodPair (w : ℕ → ℝ) (A : DumbArgs) (beads : List Vec3) (i : ℕ) (a : ℝ) (b1 b2 : Vec3) : Prop where
  first : Clear A beads i a b1
  second : Clear A beads i a b2
  box1 : ∃ k0, b1 = random_point_in_box w k0 A.bl A.tr
  box2 : InBox A.bl A.tr b2
  dir : ∃ th ph, b2 = bead2At b1 A.dx th ph ∧ (∀ x, A.theta = some x → th = x) ∧ ∀ x, A.phi = some x → ph = x

theorem proposeDumbbell_ok {w : ℕ → ℝ} {A : DumbArgs} {beads : List Vec3} {i : ℕ} {a : ℝ} {fuel k k' : ℕ}
    {b1 b2 : Vec3} (h : proposeDumbbell w A beads i a fuel k = .ok (b1, b2, k')) :
    GoodPair w A beads i a b1 b2 := by
  induction fuel generalizing k with
  | zero => exact absurd h (by simp [proposeDumbbell, throw, throwThe, MonadExceptOf.throw])
  | succ fuel ih =>
    rw [proposeDumbbell] at h
    obtain ⟨c2, h2, h⟩ := bind_ok.1 h
    by_cases hc : c2 = 0
    · rw [if_pos hc] at h
      obtain ⟨⟨o, k2⟩, h3, h⟩ := bind_ok.1 h
      cases o with
      | none => exact ih h
      | some b2' =>
        have e := ok_pure h
        have e1 := congrArg Prod.fst e
        have e2 := congrArg (fun x => x.2.1) e
        dsimp only at e1 e2
        subst e1 e2 hc
        obtain ⟨q1, q2, q3⟩ := tryBead2_ok h3
        exact ⟨clear_of_counts h2, q1, ⟨k, rfl⟩, q2, q3⟩
    · rw [if_neg hc] at h; exact ih h

theorem proposeDumbbell_mono {w : ℕ → ℝ} {A : DumbArgs} {beads : List Vec3} {i : ℕ} {a : ℝ} {fuel k m : ℕ}
    (h : proposeDumbbell w A beads i a fuel k ≠ .error .unfinished) :
    proposeDumbbell w A beads i a (fuel + m) k = proposeDumbbell w A beads i a fuel k := by
  induction fuel generalizing k with
  | zero => exact absurd rfl h
  | succ fuel ih =>
    rw [show fuel + 1 + m = fuel + m + 1 by omega, proposeDumbbell]
    rw [proposeDumbbell] at h ⊢
    revert h
    cases A.countBoth beads i (random_point_in_box w k A.bl A.tr) a 0 with
    | error e => exact fun _ => rfl
    | ok c2 =>
        simp only [bind, Except.bind]
        by_cases hc : c2 = 0
        · simp only [if_pos hc]
          cases tryBead2 w A beads i a (random_point_in_box w k A.bl A.tr) 100 c2 (k + 3) with
          | error e => exact fun _ => rfl
          | ok x =>
            obtain ⟨o, k2⟩ := x
            cases o with
            | none => exact fun h => ih h
            | some b2 => exact fun _ => rfl
        · simp only [if_neg hc]
          exact fun h => ih h

theorem placeDumbbells_mono {fuel m : ℕ} {w : ℕ → ℝ} {A : DumbArgs} {rest : List ℝ} {i k : ℕ}
    {beads : List Vec3} {out : List (Vec3 × Vec3)}
    (h : placeDumbbells fuel w A rest i beads out k ≠ .error .unfinished) :
    placeDumbbells (fuel + m) w A rest i beads out k = placeDumbbells fuel w A rest i beads out k := by
  induction rest generalizing i beads out k with
  | nil => rfl
  | cons a rest ih =>
    rw [placeDumbbells] at h
    rw [placeDumbbells, placeDumbbells]
    have h0 : proposeDumbbell w A beads i a fuel k ≠ .error .unfinished := by
      intro e; rw [e] at h; exact h rfl
    rw [proposeDumbbell_mono h0]
    revert h
    cases proposeDumbbell w A beads i a fuel k with
    | error e => exact fun _ => rfl
    | ok x => exact fun h => ih h

theorem randomise_dumbbells_mono {fuel m : ℕ} {w : ℕ → ℝ} {k : ℕ} {A : DumbArgs}
    (h : randomise_dumbbells fuel w k A ≠ .error .unfinished) :
    randomise_dumbbells (fuel + m) w k A = randomise_dumbbells fuel w k A := by
  unfold randomise_dumbbells at h ⊢
  have h0 : placeDumbbells fuel w A A.sizes 0 [] [] k ≠ .error .unfinished := by
    intro e; rw [e] at h; exact h rfl
  rw [placeDumbbells_mono h0]

/-- The list of beads of a list of bead pairs. -/
def beadList : List (Vec3 × Vec3) → List Vec3
  | [] => []
  | d :: ds => d.1 :: d.2 :: beadList ds

theorem beadList_append (l m : List (Vec3 × Vec3)) : beadList (l ++ m) = beadList l ++ beadList m := by
  induction l with
  | nil => rfl
  | cons d l ih => simp [beadList, ih]

theorem beadList_get (l : List (Vec3 × Vec3)) (j : ℕ) :
    (beadList l)[2 * j]? = (l[j]?).map Prod.fst ∧ (beadList l)[2 * j + 1]? = (l[j]?).map Prod.snd := by
  induction l generalizing j with
  | nil => simp [beadList]
  | cons d l ih =>
    cases j with
    | zero => simp [beadList]
    | succ j =>
      rw [show 2 * (j + 1) = 2 * j + 1 + 1 by ring, show 2 * j + 1 + 1 + 1 = 2 * j + 1 + 1 + 1 from rfl]
      simpa [beadList] using ih j

/-- The loop over the dumbbells adds one good pair of beads per size. -/
theorem placeDumbbells_ok {fuel : ℕ} {w : ℕ → ℝ} {A : DumbArgs} {rest : List ℝ} {i k k' : ℕ}
    {beads : List Vec3} {out out' : List (Vec3 × Vec3)}
    (h : placeDumbbells fuel w A rest i beads out k = .ok (out', k')) :
    ∃ new : List (Vec3 × Vec3), new.length = rest.length ∧
      out' = out ++ new.map (fun d => (fun c => 0.5 * (d.1 c + d.2 c), fun c => d.2 c - d.1 c)) ∧
      ∀ m < rest.length, ∃ d a, new[m]? = some d ∧ rest[m]? = some a ∧
        GoodPair w A (beads ++ beadList new) (i + m) a d.1 d.2 := by
  induction rest generalizing i beads out k with
  | nil =>
    have h : (out, k) = (out', k') := by simpa [placeDumbbells, pure, Except.pure] using h
    exact ⟨[], rfl, by simpa using (congrArg Prod.fst h).symm, fun m hm => absurd hm (Nat.not_lt_zero m)⟩
  | cons a rest ih =>
    rw [placeDumbbells] at h
    obtain ⟨⟨b1, b2, k1⟩, h1, h2⟩ := bind_ok.1 h
    have hg := proposeDumbbell_ok h1
    obtain ⟨new, e1, e2, e3⟩ := ih h2
    refine ⟨(b1, b2) :: new, by simp [e1], by simp [e2], fun m hm => ?_⟩
    have happ : beads ++ [b1, b2] ++ beadList new = beads ++ beadList ((b1, b2) :: new) := by
      simp [beadList]
    cases m with
    | zero =>
      have lift : ∀ {p : Vec3}, Clear A beads i a p → Clear A (beads ++ beadList ((b1, b2) :: new)) i a p := by
        intro p hc
        refine ⟨hc.spheres, fun j hj => ?_⟩
        obtain ⟨q, b, q1, q2, q3⟩ := hc.beads j hj
        refine ⟨q, b, ?_, q2, q3⟩
        have hlt : j < beads.length := by
          by_contra hge
          rw [List.getElem?_eq_none (by omega)] at q1
          exact absurd q1 (by simp)
        rw [List.getElem?_append_left hlt]; exact q1
      exact ⟨(b1, b2), a, rfl, rfl, lift hg.first, lift hg.second, hg.box1, hg.box2, hg.dir⟩
    | succ m =>
      obtain ⟨d, a', q1, q2, q3⟩ := e3 m (by simpa using hm)
      rw [happ, show i + 1 + m = i + (m + 1) by omega] at q3
      exact ⟨d, a', by simpa using q1, by simpa using q2, q3⟩

/-- The second bead is at the requested distance. -/
theorem bead2_gap (b1 : Vec3) (dx th ph : ℝ) : gap (bead2At b1 dx th ph) b1 = |dx| := by
  simp only [gap, len, bead2At, add_sub_cancel_left]
  rw [← Real.sqrt_sq_eq_abs]
  congr 1
  simp only [Fin.sum_univ_three, Matrix.cons_val_zero, Matrix.cons_val_one, Matrix.cons_val]
  have h1 := Real.sin_sq_add_cos_sq th
  have h2 := Real.sin_sq_add_cos_sq ph
  linear_combination dx ^ 2 * Real.sin th ^ 2 * h2 + dx ^ 2 * h1

theorem countBoth_clear {A : DumbArgs} {beads : List Vec3} {i : ℕ} {a : ℝ} {p : Vec3}
    (h : Clear A beads i a p) : A.countBoth beads i p a 0 = .ok 0 := by
  unfold DumbArgs.countBoth DumbArgs.countSpheres DumbArgs.countBeads
  rw [countClose_clear 0 h.spheres, bind_ok]
  exact ⟨0, rfl, by rw [if_pos rfl]; exact countClose_clear 0 h.beads⟩

/-- Two clear beads are accepted at once. -/
theorem proposeDumbbell_first {w : ℕ → ℝ} {A : DumbArgs} {beads : List Vec3} {i : ℕ} {a : ℝ} {fuel k k2 : ℕ}
    {b1 b2 : Vec3} {th ph : ℝ} (e1 : random_point_in_box w k A.bl A.tr = b1)
    (hd : drawAngles w A.theta A.phi (k + 3) = (th, ph, k2)) (e2 : bead2At b1 A.dx th ph = b2)
    (h1 : Clear A beads i a b1) (hb : A.inBox b2 = true) (h2 : Clear A beads i a b2) :
    proposeDumbbell w A beads i a (fuel + 1) k = .ok (b1, b2, k2) := by
  have ht : tryBead2 w A beads i a b1 (99 + 1) 0 (k + 3) = .ok (some b2, k2) := by
    rw [tryBead2, hd]
    dsimp only
    rw [e2, if_pos hb, countBoth_clear h2]
    rfl
  rw [proposeDumbbell, e1, countBoth_clear h1]
  refine bind_ok.2 ⟨0, rfl, ?_⟩
  rw [if_pos rfl]
  exact bind_ok.2 ⟨_, ht, rfl⟩

end SD
