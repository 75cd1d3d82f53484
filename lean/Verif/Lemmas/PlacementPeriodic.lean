import Verif.Model.PlacementPeriodic
import Verif.Spec.PlacementPeriodic
import Verif.Lemmas.Placement

/-!
# Lemmas: random placement in a periodic box
-/

set_option autoImplicit false

namespace SD

open Spec

theorem overlaps_shift (p q : Vec3) (a b : ℝ) (s : Vec3) : overlaps_periodic p q a b s = overlaps p (q + s) a b := by
  unfold overlaps_periodic overlaps
  rw [sub_sub]

theorem countClosePeriodic_eq (p : Vec3) (a : ℝ) (pos : ℕ → Option Vec3) (size : ℕ → Option ℝ) (n : ℕ) (s : Vec3)
    (c : ℕ) : countClosePeriodic p a pos size n s c = countClose p a (fun j => (pos j).map (· + s)) size n c := by
  unfold countClosePeriodic countClose
  congr 1
  funext c j
  dsimp only
  cases pos j with
  | none => rfl
  | some q =>
    cases size j with
    | none => rfl
    | some b => simp only [Option.map_some, overlaps_shift]

/-- A point is clear of everything displaced by `s`. -/
structure ClearOf (A : DumbArgs) (beads : List Vec3) (i : ℕ) (a : ℝ) (p : Vec3) (s : Vec3) : Prop where
  spheres : ∀ j < A.sphereSizes.length, ∃ q b, A.spherePos[j]? = some q ∧ A.sphereSizes[j]? = some b ∧
    Apart p a (q + s) b
  beads : ∀ j < 2 * i, ∃ q b, beads[j]? = some q ∧ A.sizes[j / 2]? = some b ∧ Apart p a (q + s) b

theorem countShift_ok {A : DumbArgs} {beads : List Vec3} {i c c' : ℕ} {a : ℝ} {p s : Vec3}
    (h : A.countShift beads i p a c s = .ok c') : c ≤ c' ∧ (c' = 0 → ClearOf A beads i a p s) := by
  obtain ⟨c1, h1, h2⟩ := bind_ok.1 h
  rw [countClosePeriodic_eq] at h1
  have k1 := countClose_ok h1
  by_cases h : c1 = 0
  · rw [if_pos h, countClosePeriodic_eq] at h2
    have k2 := countClose_ok h2
    refine ⟨by omega, fun h0 => ⟨fun j hj => ?_, fun j hj => ?_⟩⟩
    · obtain ⟨q, b, e1, e2, e3⟩ := k1.2 j hj
      obtain ⟨q', hq, rfl⟩ := Option.map_eq_some_iff.1 e1
      exact ⟨q', b, hq, e2, e3 (by omega)⟩
    · obtain ⟨q, b, e1, e2, e3⟩ := k2.2 j hj
      obtain ⟨q', hq, rfl⟩ := Option.map_eq_some_iff.1 e1
      exact ⟨q', b, hq, e2, e3 (by omega)⟩
  · rw [if_neg h] at h2
    have := ok_pure h2
    exact ⟨by omega, fun h0 => absurd (this.trans h0) h⟩

theorem countShift_clear {A : DumbArgs} {beads : List Vec3} {i : ℕ} {a : ℝ} {p s : Vec3}
    (h : ClearOf A beads i a p s) : A.countShift beads i p a 0 s = .ok 0 := by
  refine bind_ok.2 ⟨0, ?_, ?_⟩
  · rw [countClosePeriodic_eq]
    refine countClose_clear 0 fun j hj => ?_
    obtain ⟨q, b, e1, e2, e3⟩ := h.spheres j hj
    exact ⟨q + s, b, by simp [e1], e2, e3⟩
  · rw [if_pos rfl, countClosePeriodic_eq]
    refine countClose_clear 0 fun j hj => ?_
    obtain ⟨q, b, e1, e2, e3⟩ := h.beads j hj
    exact ⟨q + s, b, by simp [e1], e2, e3⟩

theorem foldShift_ok {A : DumbArgs} {beads : List Vec3} {i : ℕ} {a : ℝ} {p : Vec3} {l : List Vec3} {c c' : ℕ}
    (h : l.foldlM (A.countShift beads i p a) c = .ok c') :
    c ≤ c' ∧ (c' = 0 → ∀ s ∈ l, ClearOf A beads i a p s) := by
  induction l generalizing c with
  | nil =>
    obtain rfl : c = c' := ok_pure h
    exact ⟨le_refl _, fun _ s hs => absurd hs List.not_mem_nil⟩
  | cons s l ih =>
    rw [List.foldlM_cons] at h
    obtain ⟨c1, h1, h2⟩ := bind_ok.1 h
    obtain ⟨e1, e2⟩ := countShift_ok h1
    obtain ⟨e3, e4⟩ := ih h2
    refine ⟨e1.trans e3, fun h0 t ht => ?_⟩
    rcases List.mem_cons.1 ht with rfl | ht
    · exact e2 (by omega)
    · exact e4 h0 t ht

theorem foldShift_clear {A : DumbArgs} {beads : List Vec3} {i : ℕ} {a : ℝ} {p : Vec3} {l : List Vec3}
    (h : ∀ s ∈ l, ClearOf A beads i a p s) : l.foldlM (A.countShift beads i p a) 0 = .ok 0 := by
  induction l with
  | nil => rfl
  | cons s l ih =>
    rw [List.foldlM_cons]
    exact bind_ok.2 ⟨0, countShift_clear (h s (List.mem_cons_self ..)),
      ih fun t ht => h t (List.mem_cons_of_mem _ ht)⟩

/-- A point is clear of everything and of the neighbouring images. -/
def ClearAll (A : DumbArgs) (beads : List Vec3) (i : ℕ) (a : ℝ) (p : Vec3) : Prop :=
  ∀ s ∈ A.shifts, ClearOf A beads i a p s

theorem countImages_ok {A : DumbArgs} {beads : List Vec3} {i c c' : ℕ} {a : ℝ} {p : Vec3}
    (h : A.countImages beads i p a c = .ok c') : c ≤ c' ∧ (c' = 0 → ClearAll A beads i a p) := foldShift_ok h

theorem countImages_clear {A : DumbArgs} {beads : List Vec3} {i : ℕ} {a : ℝ} {p : Vec3}
    (h : ClearAll A beads i a p) : A.countImages beads i p a 0 = .ok 0 := foldShift_clear h

/-- Once something was too close, no later try succeeds. -/
theorem tryPeriodic_stuck {w : ℕ → ℝ} {A : DumbArgs} {beads : List Vec3} {i : ℕ} {a : ℝ} {b1 b2 : Vec3}
    {t c k k' : ℕ} (hc : c ≠ 0) : tryBead2Periodic w A beads i a b1 t c k ≠ .ok (some b2, k') := by
  induction t generalizing c k with
  | zero =>
    intro h
    rw [tryBead2Periodic] at h
    exact absurd (congrArg Prod.fst (ok_pure h)) (by simp)
  | succ t ih =>
    intro h
    rw [tryBead2Periodic] at h
    generalize drawAngles w A.theta A.phi k = d at h
    obtain ⟨th, ph, k1⟩ := d
    obtain ⟨c1, h1, h2⟩ := bind_ok.1 h
    have := (countImages_ok h1).1
    rw [if_neg (by omega)] at h2
    exact ih (by omega) h2

theorem tryPeriodic_first {w : ℕ → ℝ} {A : DumbArgs} {beads : List Vec3} {i : ℕ} {a : ℝ} {b1 b2 : Vec3}
    {t k k' : ℕ} (h : tryBead2Periodic w A beads i a b1 t 0 k = .ok (some b2, k')) :
    ClearAll A beads i a b2 ∧ b2 = bead2At b1 A.dx (drawAngles w A.theta A.phi k).1 (drawAngles w A.theta A.phi k).2.1 ∧
      k' = (drawAngles w A.theta A.phi k).2.2 := by
  cases t with
  | zero =>
    rw [tryBead2Periodic] at h
    exact absurd (congrArg Prod.fst (ok_pure h)) (by simp)
  | succ t =>
    rw [tryBead2Periodic] at h
    generalize drawAngles w A.theta A.phi k = d at h ⊢
    obtain ⟨th, ph, k1⟩ := d
    obtain ⟨c1, h1, h2⟩ := bind_ok.1 h
    by_cases hc : c1 = 0
    · rw [if_pos hc] at h2
      have e := ok_pure h2
      have e1 := Option.some.inj (congrArg Prod.fst e)
      have e2 := congrArg Prod.snd e
      subst e1
      exact ⟨(countImages_ok h1).2 hc, rfl, e2.symm⟩
    · rw [if_neg hc] at h2
      exact absurd h2 (tryPeriodic_stuck hc)

/-- What is known of an accepted pair of beads. -/
structure GoodPairP (w : ℕ → ℝ) (A : DumbArgs) (beads : List Vec3) (i : ℕ) (a : ℝ) (b1 b2 : Vec3) : Prop where
  first : ClearAll A beads i a b1
  second : ClearAll A beads i a b2
  box1 : ∃ k0, b1 = random_point_in_box w k0 A.bl A.tr
  dir : ∃ th ph, b2 = bead2At b1 A.dx th ph ∧ (∀ x, A.theta = some x → th = x) ∧ ∀ x, A.phi = some x → ph = x

theorem proposePeriodic_ok {w : ℕ → ℝ} {A : DumbArgs} {beads : List Vec3} {i : ℕ} {a : ℝ} {fuel k k' : ℕ}
    {b1 b2 : Vec3} (h : proposeDumbbellPeriodic w A beads i a fuel k = .ok (b1, b2, k')) :
    GoodPairP w A beads i a b1 b2 := by
  induction fuel generalizing k with
  | zero => exact absurd h (by simp [proposeDumbbellPeriodic, throw, throwThe, MonadExceptOf.throw])
  | succ fuel ih =>
    rw [proposeDumbbellPeriodic] at h
    obtain ⟨c2, h2, h⟩ := bind_ok.1 h
    by_cases hc : c2 = 0
    · rw [if_pos hc] at h
      obtain ⟨⟨o, k2⟩, h3, h⟩ := bind_ok.1 h
      cases o with
      | none => exact ih h
      | some b2' =>
        have e := ok_pure h
        obtain rfl : random_point_in_box w k A.bl A.tr = b1 := congrArg Prod.fst e
        obtain rfl : b2' = b2 := congrArg (fun x => x.2.1) e
        subst hc
        obtain ⟨t1, t2, -⟩ := tryPeriodic_first h3
        have hf := drawAngles_fixed w A.theta A.phi (k + 3)
        exact ⟨(countImages_ok h2).2 rfl, t1, ⟨k, rfl⟩, _, _, t2, hf⟩
    · rw [if_neg hc] at h; exact ih h

/-- The loop over the dumbbells adds one good pair of beads per size. -/
theorem placePeriodic_ok {fuel : ℕ} {w : ℕ → ℝ} {A : DumbArgs} {rest : List ℝ} {i k k' : ℕ}
    {beads : List Vec3} {out out' : List (Vec3 × Vec3)}
    (h : placeDumbbellsPeriodic fuel w A rest i beads out k = .ok (out', k')) :
    ∃ new : List (Vec3 × Vec3), new.length = rest.length ∧
      out' = out ++ new.map (fun d => (A.wrapCentre fun c => 0.5 * (d.1 c + d.2 c), fun c => d.2 c - d.1 c)) ∧
      ∀ m < rest.length, ∃ d a, new[m]? = some d ∧ rest[m]? = some a ∧
        GoodPairP w A (beads ++ beadList new) (i + m) a d.1 d.2 := by
  induction rest generalizing i beads out k with
  | nil =>
    have h : (out, k) = (out', k') := by simpa [placeDumbbellsPeriodic, pure, Except.pure] using h
    exact ⟨[], rfl, by simpa using (congrArg Prod.fst h).symm, fun m hm => absurd hm (Nat.not_lt_zero m)⟩
  | cons a rest ih =>
    rw [placeDumbbellsPeriodic] at h
    obtain ⟨⟨b1, b2, k1⟩, h1, h2⟩ := bind_ok.1 h
    have hg := proposePeriodic_ok h1
    dsimp only at h2
    split_ifs at h2 with hal
    obtain ⟨new, e1, e2, e3⟩ := ih h2
    refine ⟨(b1, b2) :: new, by simp [e1], by simp [e2], fun m hm => ?_⟩
    have happ : beads ++ [b1, b2] ++ beadList new = beads ++ beadList ((b1, b2) :: new) := by
      simp [beadList]
    cases m with
    | zero =>
      have lift : ∀ {p : Vec3}, ClearAll A beads i a p → ClearAll A (beads ++ beadList ((b1, b2) :: new)) i a p := by
        intro p hc s hs
        refine ⟨(hc s hs).spheres, fun j hj => ?_⟩
        obtain ⟨q, b, q1, q2, q3⟩ := (hc s hs).beads j hj
        refine ⟨q, b, ?_, q2, q3⟩
        have hlt : j < beads.length := by
          by_contra hge
          rw [List.getElem?_eq_none (by omega)] at q1
          exact absurd q1 (by simp)
        rw [List.getElem?_append_left hlt]; exact q1
      exact ⟨(b1, b2), a, rfl, rfl, lift hg.first, lift hg.second, hg.box1, hg.dir⟩
    | succ m =>
      obtain ⟨d, a', q1, q2, q3⟩ := e3 m (by simpa using hm)
      rw [happ, show i + 1 + m = i + (m + 1) by omega] at q3
      exact ⟨d, a', by simpa using q1, by simpa using q2, q3⟩

end SD
