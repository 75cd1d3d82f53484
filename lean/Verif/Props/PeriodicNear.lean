import Verif.Lemmas.PeriodicNear

/-!
# The near field in a periodic box (C75)
-/

set_option autoImplicit false

namespace SD

open Spec Near

theorem lamIndex_of_cell {T : ScalarTable} {P : PosData} {B : Mat3} {k : ℝ} (h : CellTabulated B T.lam P k) :
    Found T (P.Ns + 2 * P.Nd) P.beadSize (cellLink B k P.beadPos P.beadSize) := by
  intro x hx y hy hl
  rw [lamIndex_ne_none, beadSize_eq]
  rw [beadSize_eq, beadPos_eq] at hl
  exact h x hx y hy hl

section
variable {bl tr Ot : Vec3} {Et B : Mat3} (hL : ∀ i, bl i < tr i)
  (hB : FoldedBox (fun i => tr i - bl i) Ot Et B) (hs : Spans B)
include hL hB hs

section
variable {T : ScalarTable} {P : PosData} {k : ℝ} (hP : CellSensible B P) (hk : 0 ≤ k)
include hP hk

theorem box_links : ∃ l, close_particles_periodic (P.Ns + 2 * P.Nd) P.beadPos P.beadSize k bl tr Ot Et = some l ∧
    Links (P.Ns + 2 * P.Nd) P.beadSize l (cellLink B k P.beadPos P.beadSize) := by
  refine cell_links hL hB hs hk ?_ ?_
  · rw [beadSize_eq]; exact hP.radius_pos
  · rw [beadPos_eq]; exact hP.apart

theorem box_mutual : Mutual (beads P) (cellLink B k (centre P) (radius P)) := by
  obtain ⟨l, -, h⟩ := box_links hL hB hs hP hk
  have := h.mutual
  rwa [beadSize_eq, beadPos_eq] at this

variable (hT : CellTabulated B T.lam P k)
include hT

/-- **C75** (entries). In a periodic box the near-field matrix, before the change to dumbbell coordinates and
without the viscosity, is the sum over pairs of a bead and the image of another bead in the cell centred on it:
one image of each other bead, and none of the bead's own. -/
theorem C75_entry (bb : Bool) :
    ∃ l M, close_particles_periodic (beads P) P.beadPos P.beadSize k bl tr Ot Et = some l ∧
      generate_R2Bexact_loop T (NDMat.zeros (side P) (side P)) P.Ns P.Nd P.beadSize bb l = some M ∧
      M.rows = side P ∧ M.cols = side P ∧ (∀ i j, M.get i j = M.get j i) ∧
      ∀ x c1 y c2, HasRow P.Ns P.Nd x c1 → HasRow P.Ns P.Nd y c2 →
        M.get (row P.Ns x c1) (row P.Ns y c2)
        = systemNear P.Ns (beads P) bb (radius P) (tableScal T) (cellLink B k (centre P) (radius P))
            x c1 y c2 := by
  obtain ⟨l, hl, hk'⟩ := box_links hL hB hs hP hk
  obtain ⟨M, h1, h2, h3, h4, h5⟩ := r2b_entry (T := T) (bb := bb) hk' (lamIndex_of_cell hT)
    (fun x hx => by rw [beadSize_eq]; exact (hP.radius_pos x hx).ne') (side P) (side P)
  refine ⟨l, M, hl, h1, h2, h3, h4, fun x c1 y c2 hx hy => ?_⟩
  rw [h5 x c1 y c2 hx hy, beadSize_eq, beadPos_eq]
  rfl

/-- **C75** (symmetric). The matrix that is returned is square and symmetric, and acts on dumbbell velocities as the
one in bead coordinates acts on bead velocities, times the viscosity. -/
theorem C75_symmetric (mu : ℝ) (bb : Bool) :
    ∃ l M R, close_particles_periodic (beads P) P.beadPos P.beadSize k bl tr Ot Et = some l ∧
      generate_R2Bexact_loop T (NDMat.zeros (side P) (side P)) P.Ns P.Nd P.beadSize bb l = some M ∧
      generate_R2Bexact_periodic T P k mu bl tr Ot Et bb = some R ∧ R.rows = side P ∧ R.cols = side P ∧
      (∀ i j, R.get i j = R.get j i) ∧
      ∀ (w : ℕ → ℝ) (i : ℕ), i < side P → mulVec (side P) R.get (toDumbVel P.Ns P.Nd w) i
        = toDumbForce P.Ns P.Nd (fun j => mu * mulVec (side P) M.get w j) i := by
  obtain ⟨l, M, hl, h1, h2, h3, h4, -⟩ := C75_entry hL hB hs hP hk hT bb
  obtain ⟨R, e1, e2, e3, e4, e5⟩ := R2B_mulVec (mu := mu) h1 ⟨h2, h3⟩
  refine ⟨l, M, R, hl, h1, ?_, e2, e3, e4 h4, e5⟩
  unfold generate_R2Bexact_periodic
  have hl' : close_particles_periodic (P.Ns + 2 * P.Nd) P.beadPos P.beadSize k bl tr Ot Et = some l := hl
  rw [hl']
  exact e1

/-- **C75** (dissipation). With a table that does not feed energy into any pair the near field of the box takes energy
out of every motion of the suspension. -/
theorem C75_dissipates (hD : TableDissipates T) {mu : ℝ} (hmu : 0 ≤ mu) (bb : Bool) :
    ∃ R, generate_R2Bexact_periodic T P k mu bl tr Ot Et bb = some R ∧ R.rows = side P ∧ R.cols = side P ∧
      (∀ i j, R.get i j = R.get j i) ∧
      ∀ v : ℕ → ℝ, 0 ≤ ∑ i ∈ Finset.range (side P), v i * mulVec (side P) R.get v i := by
  obtain ⟨l, M, hl, h1, h2, h3, h4, h5⟩ := C75_entry hL hB hs hP hk hT bb
  obtain ⟨l', M', R, hl', h1', r1, r2, r3, r4, r5⟩ := C75_symmetric hL hB hs hP hk hT mu bb
  obtain rfl := Option.some.inj (hl.symm.trans hl')
  obtain rfl := Option.some.inj (h1.symm.trans h1')
  refine ⟨R, r1, r2, r3, r4, fun v => ?_⟩
  obtain ⟨w, hw⟩ : ∃ w, ∀ i < side P, toDumbVel P.Ns P.Nd w i = v i := vel_surj P.Ns P.Nd v
  have e1 : ∑ i ∈ Finset.range (side P), v i * mulVec (side P) R.get v i
      = ∑ i ∈ Finset.range (side P), toDumbVel P.Ns P.Nd w i * mulVec (side P) R.get (toDumbVel P.Ns P.Nd w) i :=
    Finset.sum_congr rfl fun i hi => by
      rw [mulVec_congr hw, hw i (Finset.mem_range.mp hi)]
  have e2 : ∑ i ∈ Finset.range (side P), toDumbVel P.Ns P.Nd w i * mulVec (side P) R.get (toDumbVel P.Ns P.Nd w) i
      = mu * ∑ x ∈ Finset.range (beads P), ∑ y ∈ Finset.range (beads P), share P.Ns bb (radius P) (tableScal T)
          (cellLink B k (centre P) (radius P)) (moves P.Ns P.Nd w) x y := by
    rw [← form_shares, Finset.sum_congr rfl fun i hi => congrArg _ (r5 w i (Finset.mem_range.mp hi))]
    have := C11_power P.Ns P.Nd (fun j => mu * mulVec (side P) M.get w j) w
    rw [Finset.sum_congr rfl fun i _ => mul_comm _ _]
    refine this.trans ?_
    have := form_beads h5 w
    unfold beads side at *
    rw [← this, Finset.mul_sum]
    exact Finset.sum_congr rfl fun i _ => by ring
  rw [e1, e2]
  have hm := box_mutual hL hB hs hP hk
  have f := lamIndex_of_cell hT
  rw [beadSize_eq, beadPos_eq] at f
  refine mul_nonneg hmu (form_nonneg hm (fun x hx y hy hxy d s hl => ?_) _)
  have hl' : cellLink B k (centre P) (radius P) y x ≠ none := by
    rcases hm x hx y hy hxy.ne with ⟨h, -⟩ | ⟨d', s', -, -, h⟩
    · rw [h] at hl; exact absurd hl (by simp)
    · rw [h]; simp
  exact table_dissipative hD (hP.radius_pos x hx) (hP.radius_pos y hy) (f x hx y hy (.inr (by rw [hl]; simp)))
    (f y hy x hx (.inr hl')) s

end

/-- **C75** (images and translation). Replacing particles by images of theirs, each on its own, and moving all by the
same vector changes nothing: whatever the table and the sizes, the result (or the failure) is the same. -/
theorem C75_images {P P' : PosData} {t : Vec3} (h : SameInBox B t P P') (T : ScalarTable) (k mu : ℝ) (bb : Bool) :
    generate_R2Bexact_periodic T P' k mu bl tr Ot Et bb = generate_R2Bexact_periodic T P k mu bl tr Ot Et bb := by
  have hsz : P'.beadSize = P.beadSize := by
    funext x
    unfold PosData.beadSize
    rw [h.spheres, h.dumbbells, h.sphereSize, h.dumbSize]
  have hl : close_particles_periodic (P'.Ns + 2 * P'.Nd) P'.beadPos P'.beadSize k bl tr Ot Et
      = close_particles_periodic (P.Ns + 2 * P.Nd) P.beadPos P.beadSize k bl tr Ot Et := by
    rw [h.spheres, h.dumbbells, hsz]
    obtain ⟨l, hl, hp, hm⟩ := cell_list hL hB hs (P.Ns + 2 * P.Nd) P.beadPos P.beadSize k
    obtain ⟨l', hl', hp', hm'⟩ := cell_list hL hB hs (P.Ns + 2 * P.Nd) P'.beadPos P.beadSize k
    rw [hl, hl']
    congr 1
    refine sorted_ext hp' hp fun p => ?_
    have e : p.i ≤ p.j → p.j < P.Ns + 2 * P.Nd → cellImage B (fun m => P'.beadPos p.j m - P'.beadPos p.i m)
        = cellImage B fun m => P.beadPos p.j m - P.beadPos p.i m := by
      intro h1 h2
      refine (cellImage_congr hs ?_).symm
      have a := h.centres p.j h2
      have b := h.centres p.i (lt_of_le_of_lt h1 h2)
      rw [beadPos_eq, beadPos_eq]
      have := inLattice_add a (inLattice_neg b)
      refine (congrArg (InLattice B) ?_).mp this
      funext m; ring
    rw [hm p, hm' p]
    constructor
    · rintro ⟨h1, h2, h3⟩
      unfold cellPair at h3 ⊢
      rw [e h1 h2] at h3
      exact ⟨h1, h2, h3⟩
    · rintro ⟨h1, h2, h3⟩
      unfold cellPair at h3 ⊢
      rw [← e h1 h2] at h3
      exact ⟨h1, h2, h3⟩
  unfold generate_R2Bexact_periodic
  rw [hl]
  refine congrArg _ (funext fun l => ?_)
  unfold R2BexactOfPairs
  rw [h.spheres, h.dumbbells, hsz]

/-- **C75** (large box). If every bead sees every later one itself in the cell centred on it, no radius is
above 1 and no pair is exactly at the cutoff, then the near field of the box is the near field of the unbounded
domain. -/
theorem C75_unbounded {P : PosData} {k : ℝ} (hk : 0 < k) (hr : ∀ x < beads P, 0 < radius P x ∧ radius P x ≤ 1)
    (hc : ∀ x < beads P, ∀ y < beads P, x < y → InCell B fun m => centre P y m - centre P x m)
    (hn : ∀ x < beads P, ∀ y < beads P, x < y →
      len (fun m => centre P y m - centre P x m) / ((radius P x + radius P y) / 2) ≠ 2 * k)
    (T : ScalarTable) (mu : ℝ) (bb : Bool) :
    generate_R2Bexact_periodic T P k mu bl tr Ot Et bb = generate_R2Bexact T P k mu bb := by
  obtain ⟨l, hl, hp, hm⟩ := cell_list hL hB hs (P.Ns + 2 * P.Nd) P.beadPos P.beadSize k
  unfold generate_R2Bexact_periodic generate_R2Bexact
  rw [hl, Option.bind_eq_bind, Option.bind_some]
  congr 1
  refine sorted_ext hp (close_sorted _ _ _ _) fun p => ?_
  have hz : ∀ x, InCell B fun m => centre P x m - centre P x m := fun x =>
    ⟨fun _ => 0, fun i => by norm_num, by funext m; simp [combine]⟩
  have im : p.i ≤ p.j → p.j < beads P → cellImage B (fun m => centre P p.j m - centre P p.i m)
      = fun m => centre P p.j m - centre P p.i m := by
    intro h1 h2
    refine cellImage_inCell hs ?_
    rcases h1.eq_or_lt with h | h
    · rw [h]; exact hz _
    · exact hc _ (lt_of_le_of_lt h1 h2) _ h2 h
  have e2 : ∀ a b : ℝ, 2 * a / b = a / (b / 2) := fun a b => by rw [div_div_eq_mul_div, mul_comm]
  rw [hm p, close_mem]
  unfold cellPair
  rw [beadPos_eq, beadSize_eq, distance_eq, ← e2]
  constructor
  · rintro ⟨h1, h2, h3, h4, h5⟩
    have i' := im h1 h2
    rw [i'] at h3 h4 h5
    refine ⟨h1, h2, lt_of_le_of_ne h4 fun e => ?_, congrArg ClosePair.disp h5, congrArg ClosePair.dist h5,
      congrArg ClosePair.ratio h5⟩
    rcases h1.eq_or_lt with h | h
    · rw [h] at e
      simp only [sub_self] at e
      rw [show len (fun _ => (0 : ℝ)) = 0 from len_zero] at e
      simp at e
      linarith
    · exact hn _ (lt_of_le_of_lt h1 h2) _ h2 h (by rw [← e2]; exact e)
  · rintro ⟨h1, h2, h3, h4, h5, h6⟩
    have i' := im h1 h2
    have r1 := hr p.i (lt_of_le_of_lt h1 h2)
    have r2 := hr p.j h2
    rw [i']
    refine ⟨h1, h2, ?_, h3.le, ?_⟩
    · rw [div_lt_iff₀ (by linarith)] at h3
      nlinarith [r1.1, r1.2, r2.1, r2.2]
    · cases p
      simp_all

/-- **C75** (own images). A single sphere has no near field, however small the box: its own images are not
counted. -/
theorem C75_alone {P : PosData} (h1 : P.Ns = 1) (h2 : P.Nd = 0) (h0 : 0 < P.sphereSize 0) {T : ScalarTable} {k : ℝ}
    (hk : 0 ≤ k) (hT : lamIndex T 1 ≠ none) (mu : ℝ) (bb : Bool) :
    ∃ R, generate_R2Bexact_periodic T P k mu bl tr Ot Et bb = some R ∧
      ∀ i < side P, ∀ j < side P, R.get i j = 0 := by
  have hb : beads P = 1 := by unfold beads; rw [h1, h2]
  have hr : radius P 0 = P.sphereSize 0 := by simp [radius, h1]
  have hP : CellSensible B P := by
    refine ⟨fun x hx => ?_, fun x hx y hy hxy => ?_⟩
    · obtain rfl : x = 0 := by omega
      rw [hr]; exact h0
    · omega
  have hT' : CellTabulated B T.lam P k := by
    intro x hx y hy _
    obtain rfl : x = 0 := by omega
    obtain rfl : y = 0 := by omega
    rw [hr, div_self h0.ne']
    exact lamIndex_ne_none.mp hT
  obtain ⟨l, M, hl, m1, -, -, -, m2⟩ := C75_entry (T := T) hL hB hs hP hk hT' bb
  obtain ⟨l', M', R, hl', m1', r1, -, -, -, r2⟩ := C75_symmetric hL hB hs hP hk hT' mu bb
  obtain rfl := Option.some.inj (hl.symm.trans hl')
  obtain rfl := Option.some.inj (m1.symm.trans m1')
  have hM : ∀ i < side P, ∀ j < side P, M.get i j = 0 := by
    intro i hi j hj
    obtain ⟨x, c1, hx, rfl⟩ := (C48_rows P).1 i hi
    obtain ⟨y, c2, hy, rfl⟩ := (C48_rows P).1 j hj
    have hx' := owns_lt (owns_kind hx)
    have hy' := owns_lt (owns_kind hy)
    obtain rfl : x = 0 := by omega
    obtain rfl : y = 0 := by omega
    rw [m2 _ _ _ _ hx hy]
    unfold systemNear
    rw [if_pos rfl, hb]
    simp
  refine ⟨R, r1, fun i hi j hj => ?_⟩
  have := r2 (fun n => if n = j then 1 else 0) i hi
  have hv : ∀ w n, n < side P → toDumbVel P.Ns P.Nd w n = w n := by
    intro w n hn
    unfold toDumbVel
    rw [if_pos (by unfold side at hn; omega)]
  rw [mulVec_congr (hv _)] at this
  have e : mulVec (side P) R.get (fun n => if n = j then 1 else 0) i = R.get i j := by
    unfold mulVec
    simp [hj]
  rw [e] at this
  rw [this]
  have hf : ∀ w, toDumbForce P.Ns P.Nd w i = w i := by
    intro w
    unfold toDumbForce
    rw [if_pos (by unfold side at hi; omega)]
  rw [hf]
  unfold mulVec
  rw [Finset.sum_eq_zero fun n hn => by rw [hM i hi n (Finset.mem_range.mp hn), zero_mul], mul_zero]

end

/-- **C75** (failure). For beads at different places the near field fails exactly if the edges of the box do not span space or some
size ratio that is looked up is not in the table. -/
theorem C75_fails {bl tr Ot : Vec3} {Et B : Mat3} (hL : ∀ i, bl i < tr i)
    (hB : FoldedBox (fun i => tr i - bl i) Ot Et B) (T : ScalarTable) {P : PosData} {k : ℝ} (hk : 0 ≤ k) (mu : ℝ)
    (bb : Bool) :
    (¬ Spans B → generate_R2Bexact_periodic T P k mu bl tr Ot Et bb = none) ∧
    (Spans B → ¬ CellTabulated B T.lam P k →
      generate_R2Bexact_periodic T P k mu bl tr Ot Et bb = none) ∧
    (Spans B → CellSensible B P → CellTabulated B T.lam P k →
      generate_R2Bexact_periodic T P k mu bl tr Ot Et bb ≠ none) := by
  refine ⟨?_, ?_, ?_⟩
  · intro hs
    unfold generate_R2Bexact_periodic
    rw [C24_degenerate hL hB hs]
    rfl
  · intro hs hT
    unfold CellTabulated at hT
    push Not at hT
    obtain ⟨x, hx, y, hy, hxy, hT⟩ := hT
    have hT : lamIndex T (radius P y / radius P x) = none := by
      by_contra hc
      obtain ⟨t, ht, h⟩ := lamIndex_ne_none.mp hc
      exact absurd h (not_le.mpr (hT t ht))
    obtain ⟨l, hl, -, hm⟩ := cell_list hL hB hs (P.Ns + 2 * P.Nd) P.beadPos P.beadSize k
    have e2 : ∀ a b : ℝ, 2 * a / b = a / (b / 2) := fun a b => by rw [div_div_eq_mul_div, mul_comm]
    have hp : ∃ p ∈ l, lamIndex T p.ratio = none ∨ lamIndex T (1 / p.ratio) = none := by
      rcases lt_trichotomy x y with h | h | h
      · have hxy := hxy.resolve_left h.ne
        unfold cellLink at hxy
        rw [cellStep_lt h] at hxy
        obtain ⟨h1, h2⟩ : _ ∧ _ := by
          by_contra hc
          exact hxy (if_neg hc)
        refine ⟨cellPair B P.beadPos P.beadSize x y, (hm _).mpr ⟨h.le, hy, ?_, ?_, rfl⟩, Or.inl ?_⟩
        · show len (cellImage B fun m => P.beadPos y m - P.beadPos x m) ≤ _
          rw [beadPos_eq]; exact h1
        · show 2 * len (cellImage B fun m => P.beadPos y m - P.beadPos x m) / (P.beadSize x + P.beadSize y) ≤ _
          rw [beadPos_eq, beadSize_eq, e2]; exact h2
        · show lamIndex T (P.beadSize y / P.beadSize x) = none
          rw [beadSize_eq]; exact hT
      · subst h
        have hz : len (cellImage B fun m => P.beadPos x m - P.beadPos x m) = 0 := by
          have : cellImage B (fun m => P.beadPos x m - P.beadPos x m) = fun _ => 0 := by
            refine cellImage_eq hs ⟨fun _ => 0, fun i => by norm_num, ?_⟩
              ((congrArg (InLattice B) ?_).mp inLattice_zero)
            · funext m; simp [combine]
            · funext m; simp
          rw [this]; exact len_zero
        refine ⟨cellPair B P.beadPos P.beadSize x x, (hm _).mpr ⟨le_rfl, hx, ?_, ?_, rfl⟩, Or.inl ?_⟩
        · show len (cellImage B fun m => P.beadPos x m - P.beadPos x m) ≤ _
          rw [hz]; positivity
        · show 2 * len (cellImage B fun m => P.beadPos x m - P.beadPos x m) / _ ≤ _
          rw [hz]; simpa using hk
        · show lamIndex T (P.beadSize x / P.beadSize x) = none
          rw [beadSize_eq]; exact hT
      · have hxy := hxy.resolve_left h.ne'
        unfold cellLink at hxy
        rw [cellStep_gt h] at hxy
        obtain ⟨h1, h2⟩ : _ ∧ _ := by
          by_contra hc
          exact hxy (if_neg hc)
        have hn : ∀ v : Vec3, len (fun m => -v m) = len v := fun v => by simp [len]
        rw [hn] at h1 h2
        refine ⟨cellPair B P.beadPos P.beadSize y x, (hm _).mpr ⟨h.le, hx, ?_, ?_, rfl⟩, Or.inr ?_⟩
        · show len (cellImage B fun m => P.beadPos x m - P.beadPos y m) ≤ _
          rw [beadPos_eq]; exact h1
        · show 2 * len (cellImage B fun m => P.beadPos x m - P.beadPos y m) / (P.beadSize y + P.beadSize x) ≤ _
          rw [beadPos_eq, beadSize_eq, e2, add_comm (radius P y)]; exact h2
        · show lamIndex T (1 / (P.beadSize x / P.beadSize y)) = none
          rw [beadSize_eq, one_div_div]; exact hT
    obtain ⟨p, hp, hpn⟩ := hp
    have hnone : ∀ D, r2bStep T P.Ns P.Nd P.beadSize bb l D p = none := by
      intro D
      unfold r2bStep
      rcases hpn with h | h
      · rw [h]; rfl
      · rw [h]
        cases lamIndex T p.ratio <;> rfl
    have fold : ∀ (qs : List ClosePair) D, p ∈ qs → qs.foldlM (r2bStep T P.Ns P.Nd P.beadSize bb l) D = none := by
      intro qs
      induction qs with
      | nil => intro D h; simp at h
      | cons q qs ih =>
        intro D h
        rw [List.foldlM_cons]
        rcases List.mem_cons.mp h with h | h
        · rw [← h, hnone]; rfl
        · cases r2bStep T P.Ns P.Nd P.beadSize bb l D q with
          | none => rfl
          | some D' => exact ih D' h
    unfold generate_R2Bexact_periodic R2BexactOfPairs generate_R2Bexact_loop
    rw [hl]
    dsimp only
    rw [Option.bind_eq_bind, Option.bind_some, fold l _ hp]
    rfl
  · intro hs hP hT hn
    obtain ⟨-, -, R, -, -, h, -⟩ := C75_symmetric hL hB hs hP hk hT mu bb
    rw [hn] at h
    exact absurd h (by simp)

/-! ## Examples -/

/-- Two unit spheres in the sheared cube of side 10, close to each other across its boundary. -/
noncomputable def skewP : PosData where
  Ns := 2
  Nd := 0
  sphereSize := fun _ => 1
  spherePos := twoAt ![12, 0, 99 / 10]
  dumbSize := fun _ => 1
  dumbPos := fun _ _ => 0
  dumbDx := fun _ _ => 0

theorem skewP_centre (x : ℕ) (hx : x < 2) : centre skewP x = twoAt ![12, 0, 99 / 10] x := by
  funext i
  exact if_pos hx

theorem skewP_radius (x : ℕ) (hx : x < 2) : radius skewP x = 1 := by
  simp [radius, skewP, hx]

/-- Evaluate vectors of numbers. -/
local macro "vec" : tactic => `(tactic| (simp [combine, skewB, skewO, skewE, twoAt, edge, cross, app, dotp] <;> norm_num))

theorem skewP_image : cellImage skewB (![12, 0, 99 / 10] : Vec3) = ![3, 0, -(1 / 10)] := by
  refine cellImage_eq skew_spans ⟨![309 / 1000, 0, -(1 / 100)], fun i => by fin_cases i <;> vec, ?_⟩ ⟨![0, 0, 1], ?_⟩
  · funext i; fin_cases i <;> vec
  · funext i; fin_cases i <;> vec

theorem skewP_apart : ¬ InLattice skewB (![12, 0, 99 / 10] : Vec3) := by
  intro h
  have : cellImage skewB (![12, 0, 99 / 10] : Vec3) = fun _ => 0 := by
    refine cellImage_eq skew_spans ⟨fun _ => 0, fun i => by norm_num, ?_⟩ ?_
    · funext m; simp [combine]
    · simpa using h
  rw [skewP_image] at this
  have := congrFun this 0
  simp at this

theorem skewP_sensible : CellSensible skewB skewP := by
  refine ⟨fun x hx => by rw [skewP_radius x hx]; norm_num, fun x hx y hy hxy => ?_⟩
  have hx' : x < 2 := hx
  have hy' : y < 2 := hy
  rw [skewP_centre x hx', skewP_centre y hy']
  interval_cases x <;> interval_cases y
  · exact absurd rfl hxy
  · intro h; refine skewP_apart ((congrArg (InLattice skewB) ?_).mp h); funext m; simp [twoAt]
  · intro h; refine skewP_apart ((congrArg (InLattice skewB) ?_).mp (inLattice_neg h)); funext m; simp [twoAt]
  · exact absurd rfl hxy

theorem skewP_tabulated (k : ℝ) : CellTabulated skewB dampT.lam skewP k := by
  intro x hx y hy _
  rw [skewP_radius x hx, skewP_radius y hy]
  exact ⟨1, by norm_num [dampT], by norm_num⟩

/-- The near field of the two spheres in the sheared box exists and takes out energy. -/
example : ∃ R, generate_R2Bexact_periodic dampT skewP 2 1 ![0, 0, 0] ![10, 10, 10] skewO skewE true = some R ∧
    (∀ i j, R.get i j = R.get j i) ∧
    ∀ v : ℕ → ℝ, 0 ≤ ∑ i ∈ Finset.range 22, v i * mulVec 22 R.get v i := by
  obtain ⟨R, h1, -, -, h2, h3⟩ := C75_dissipates skew_sides skew_folded skew_spans skewP_sensible (by norm_num)
    (skewP_tabulated 2) dampT_dissipates zero_le_one true
  exact ⟨R, h1, h2, h3⟩

/-- They are neighbours, through the image at `(3, 0, -0.1)`. -/
theorem skewP_link : ∃ s, cellLink skewB 2 (centre skewP) (radius skewP) 0 1
    = some (fun i => (![3, 0, -(1 / 10)] : Vec3) i / len ![3, 0, -(1 / 10)], s) := by
  have e : cellStep skewB (centre skewP) 0 1 = ![3, 0, -(1 / 10)] := by
    rw [cellStep_lt (by norm_num), skewP_centre 0 (by norm_num), skewP_centre 1 (by norm_num), ← skewP_image]
    congr 1
    funext m; simp [twoAt]
  have hlen : len ![3, 0, -(1 / 10)] ≤ 2 * 2 := by
    unfold len
    rw [Real.sqrt_le_left (by norm_num), Fin.sum_univ_three]
    vec
  unfold cellLink
  dsimp only
  rw [e, skewP_radius 0 (by norm_num), skewP_radius 1 (by norm_num),
    if_pos ⟨hlen, by rw [show ((1 : ℝ) + 1) / 2 = 1 by norm_num, div_one]; exact hlen⟩]
  exact ⟨_, rfl⟩

/-- The same two spheres with the second one replaced by its image near the origin and everything moved by `t`. -/
noncomputable def skewP' (t : Vec3) : PosData :=
  { skewP with spherePos := fun i m => twoAt ![3, 0, -(1 / 10)] i m + t m }

theorem skewP_same (t : Vec3) : SameInBox skewB t skewP (skewP' t) := by
  refine ⟨rfl, rfl, rfl, rfl, fun x hx => ?_⟩
  have hx' : x < 2 := hx
  have e : centre (skewP' t) x = fun m => twoAt ![3, 0, -(1 / 10)] x m + t m := by
    funext m
    exact if_pos hx'
  rw [e, skewP_centre x hx']
  interval_cases x
  · refine (congrArg (InLattice skewB) ?_).mp inLattice_zero
    funext m; simp [twoAt]
  · refine ⟨![0, 0, -1], ?_⟩
    funext m; fin_cases m <;> vec <;> ring

example (t : Vec3) (T : ScalarTable) (k mu : ℝ) (bb : Bool) :
    generate_R2Bexact_periodic T (skewP' t) k mu ![0, 0, 0] ![10, 10, 10] skewO skewE bb
    = generate_R2Bexact_periodic T skewP k mu ![0, 0, 0] ![10, 10, 10] skewO skewE bb :=
  C75_images skew_sides skew_folded skew_spans (skewP_same t) T k mu bb

/-- A cube of side 5. -/
def five5 : Vec3 := ![5, 5, 5]

/-- Its edges. -/
def five5B : Mat3 := ![![5, 0, 0], ![0, 5, 0], ![0, 0, 5]]

/-- Two unit spheres half a side apart in that cube. -/
noncomputable def midP : PosData where
  Ns := 2
  Nd := 0
  sphereSize := fun _ => 1
  spherePos := fun i => if i = 0 then ![5 / 2, 0, 0] else fun _ => 0
  dumbSize := fun _ => 1
  dumbPos := fun _ _ => 0
  dumbDx := fun _ _ => 0

/-- **C75** (one image only). Two unit spheres half a side apart in a cube of side 5 have images on both sides, at the
same distance `5/2`, well within the cutoff. The near field is that of the two spheres alone in unbounded fluid:
the image on the other side is not counted. -/
theorem C75_one_image (T : ScalarTable) (mu : ℝ) (bb : Bool) :
    generate_R2Bexact_periodic T midP 2 mu 0 five5 (fun _ => 0) (fun _ _ => 0) bb = generate_R2Bexact T midP 2 mu bb ∧
    InLattice five5B (fun m => (![5 / 2, 0, 0] : Vec3) m - (![-(5 / 2), 0, 0] : Vec3) m) ∧
    (∀ m, centre midP 1 m - centre midP 0 m = (![-(5 / 2), 0, 0] : Vec3) m) ∧
    len ![5 / 2, 0, 0] = len ![-(5 / 2), 0, 0] ∧ len ![5 / 2, 0, 0] < 2 * 2 := by
  have hc : ∀ m, centre midP 1 m - centre midP 0 m = (![-(5 / 2), 0, 0] : Vec3) m := by
    intro m; fin_cases m <;> simp [centre, midP]
  have l1 : len ![5 / 2, 0, 0] = 5 / 2 := by
    unfold len
    rw [show ∑ i, (![5 / 2, 0, 0] : Fin 3 → ℝ) i ^ 2 = (5 / 2) ^ 2 by simp [Fin.sum_univ_three], Real.sqrt_sq (by norm_num)]
  have l2 : len ![-(5 / 2), 0, 0] = 5 / 2 := by
    unfold len
    rw [show ∑ i, (![-(5 / 2), 0, 0] : Fin 3 → ℝ) i ^ 2 = (5 / 2) ^ 2 by simp [Fin.sum_univ_three],
      Real.sqrt_sq (by norm_num)]
  have hr : ∀ x < 2, radius midP x = 1 := fun x hx => by simp [radius, midP, hx]
  refine ⟨?_, ⟨![1, 0, 0], ?_⟩, hc, l1.trans l2.symm, by rw [l1]; norm_num⟩
  · have e : (fun m => centre midP 1 m - centre midP 0 m) = (![-(5 / 2), 0, 0] : Vec3) := funext hc
    refine C75_unbounded (B := five5B) (fun i => by fin_cases i <;> simp [five5]) ?_ ?_ (by norm_num)
      (fun x hx => by rw [hr x hx]; norm_num) ?_ ?_ T mu bb
    · intro k i
      constructor
      · fin_cases k <;> fin_cases i <;> norm_num [five5, five5B, edge]
      · refine ⟨0, ?_⟩
        fin_cases k <;> fin_cases i <;> norm_num [five5, five5B, edge, cross, app, dotp]
    · unfold Spans
      simp [five5B]
    · intro x hx y hy hxy
      have hy' : y < 2 := hy
      obtain ⟨rfl, rfl⟩ : x = 0 ∧ y = 1 := by omega
      rw [e]
      refine ⟨![-(1 / 2), 0, 0], fun i => by fin_cases i <;> norm_num, ?_⟩
      funext m; fin_cases m <;> simp [combine, five5B] <;> norm_num
    · intro x hx y hy hxy
      have hy' : y < 2 := hy
      obtain ⟨rfl, rfl⟩ : x = 0 ∧ y = 1 := by omega
      rw [e, l2, hr 0 (by norm_num), hr 1 (by norm_num)]
      norm_num
  · funext m; fin_cases m <;> simp [combine, five5B] <;> norm_num

/-- A single sphere in the sheared box. -/
example (a : ℝ) (ha : 0 < a) : ∃ R, generate_R2Bexact_periodic dampT { skewP with Ns := 1, sphereSize := fun _ => a } 2 1
    ![0, 0, 0] ![10, 10, 10] skewO skewE true = some R ∧ ∀ i < 11, ∀ j < 11, R.get i j = 0 :=
  C75_alone skew_sides skew_folded skew_spans rfl rfl ha (by norm_num)
    (lamIndex_ne_none.mpr ⟨1, by norm_num [dampT], by norm_num⟩) 1 true

end SD
