import Verif.Lemmas.ClosePairs

/-!
# The near-field matrix in dumbbell coordinates
-/

set_option autoImplicit false

namespace SD

open Spec

theorem resistanceLEntries_eq (Ns Nd : ℕ) : resistanceLEntries Ns Nd =
    run 0 0 (11 * Ns) 1 ++ run (11 * Ns) (11 * Ns) (3 * Nd * 2) 1
      ++ run (11 * Ns) (11 * Ns + 3 * Nd) (3 * Nd) 1
      ++ run (11 * Ns + 3 * Nd) (11 * Ns) (3 * Nd) (-1) := by
  unfold resistanceLEntries
  rw [← zip_runs (11 * Ns) (3 * Nd) 1 1 (11 * Ns) (9 * Nd) rfl (by omega),
    show 11 * Ns + 6 * Nd = 11 * Ns + 3 * Nd * 2 by omega, ← List.replicate_add]

theorem mulVec_R (Ns Nd : ℕ) (w : ℕ → ℝ) {i : ℕ} (hi : i < 11 * Ns + 6 * Nd) :
    mulVec (11 * Ns + 6 * Nd) (cooMatrix (11 * Ns + 6 * Nd) (resistanceLEntries Ns Nd)).get w i
      = toDumbForce Ns Nd w i := by
  unfold mulVec
  rw [resistanceLEntries_eq, show 11 * Ns + 6 * Nd = 11 * Ns + 3 * Nd * 2 by omega,
    coo_runs_mulVec _ _ _ _ _ _ (by omega)]
  unfold toDumbForce
  split_ifs <;> ring

theorem mulVec_RT (Ns Nd : ℕ) (w : ℕ → ℝ) {i : ℕ} (hi : i < 11 * Ns + 6 * Nd) :
    mulVec (11 * Ns + 6 * Nd)
      (fun i j => (cooMatrix (11 * Ns + 6 * Nd) (resistanceLEntries Ns Nd)).get j i)
      (toDumbVel Ns Nd w) i = w i := by
  unfold mulVec
  rw [resistanceLEntries_eq, show 11 * Ns + 6 * Nd = 11 * Ns + 3 * Nd * 2 by omega,
    coo_runs_vecMul _ _ _ _ _ _ (by omega)]
  unfold toDumbVel
  by_cases h1 : i < 11 * Ns
  · simp only [if_pos h1]; ring
  · by_cases h2 : i < 11 * Ns + 3 * Nd
    · simp only [if_neg h1, if_pos h2, if_neg (show ¬ i + 3 * Nd < 11 * Ns by omega),
        if_neg (show ¬ i + 3 * Nd < 11 * Ns + 3 * Nd by omega), Nat.add_sub_cancel]
      ring
    · simp only [if_neg h1, if_neg h2, if_neg (show ¬ i - 3 * Nd < 11 * Ns by omega),
        if_pos (show i - 3 * Nd < 11 * Ns + 3 * Nd by omega),
        Nat.sub_add_cancel (show 3 * Nd ≤ i by omega)]
      ring

theorem smul_mulVec (n : ℕ) (k : ℝ) (M : NDMat) (w : ℕ → ℝ) (i : ℕ) :
    mulVec n (NDMat.smul k M).get w i = k * mulVec n M.get w i := by
  unfold mulVec NDMat.smul
  rw [Finset.mul_sum]
  exact Finset.sum_congr rfl fun _ _ => by ring

theorem toDumbForce_congr {Ns Nd : ℕ} {f g : ℕ → ℝ} (h : ∀ i < 11 * Ns + 6 * Nd, f i = g i) {i : ℕ}
    (hi : i < 11 * Ns + 6 * Nd) : toDumbForce Ns Nd f i = toDumbForce Ns Nd g i := by
  unfold toDumbForce
  split_ifs
  · rw [h _ (by omega)]
  · rw [h _ (by omega), h _ (by omega)]
  · rw [h _ (by omega), h _ (by omega)]

theorem toDumbVel_congr {Ns Nd : ℕ} {f g : ℕ → ℝ} (h : ∀ i < 11 * Ns + 6 * Nd, f i = g i) {i : ℕ}
    (hi : i < 11 * Ns + 6 * Nd) : toDumbVel Ns Nd f i = toDumbVel Ns Nd g i := by
  unfold toDumbVel
  split_ifs
  · rw [h _ (by omega)]
  · rw [h _ (by omega), h _ (by omega)]
  · rw [h _ (by omega), h _ (by omega)]

theorem toDumbForce_mul (Ns Nd : ℕ) (k : ℝ) (f : ℕ → ℝ) (i : ℕ) :
    toDumbForce Ns Nd (fun i => k * f i) i = k * toDumbForce Ns Nd f i := by
  unfold toDumbForce
  split_ifs <;> ring

/-- The near-field matrix returned, in terms of the bead-coordinate one. -/
theorem R2B_mulVec {T : ScalarTable} {P : PosData} {mu : ℝ} {bb : Bool} {ps : List ClosePair} {M : NDMat}
    (hM : generate_R2Bexact_loop T (NDMat.zeros (side P) (side P)) P.Ns P.Nd P.beadSize bb ps = some M)
    (hd : M.rows = side P ∧ M.cols = side P) :
    ∃ R, R2BexactOfPairs T P mu bb ps = some R ∧ R.rows = side P ∧ R.cols = side P ∧
      ((∀ i j, M.get i j = M.get j i) → ∀ i j, R.get i j = R.get j i) ∧
      ∀ (w : ℕ → ℝ) (i : ℕ), i < side P →
        mulVec (side P) R.get (toDumbVel P.Ns P.Nd w) i
          = toDumbForce P.Ns P.Nd (fun j => mu * mulVec (side P) M.get w j) i := by
  unfold side at *
  unfold R2BexactOfPairs
  dsimp only
  rw [hM]
  by_cases hN : P.Nd > 0
  · rw [Option.bind_eq_bind, Option.bind_some, if_pos hN]
    refine ⟨_, rfl, rfl, rfl, ?_, ?_⟩
    · intro hs i j
      show mu * _ = mu * _
      rw [dot_dot_symm _ _ (11 * P.Ns + 6 * P.Nd) ⟨rfl, rfl⟩ hd hs]
    intro w i hi
    rw [smul_mulVec, dot_dot_mulVec _ _ (11 * P.Ns + 6 * P.Nd) ⟨rfl, rfl⟩ hd, mulVec_R _ _ _ hi,
      toDumbForce_mul]
    congr 1
    exact toDumbForce_congr (fun j _ => mulVec_congr (fun k hk => mulVec_RT P.Ns P.Nd w hk) j) hi
  · rw [Option.bind_eq_bind, Option.bind_some, if_neg hN]
    refine ⟨_, rfl, hd.1, hd.2, ?_, ?_⟩
    · intro hs i j
      show mu * _ = mu * _
      rw [hs]
    intro w i hi
    have h0 : P.Nd = 0 := by omega
    have e : ∀ k < 11 * P.Ns + 6 * P.Nd, toDumbVel P.Ns P.Nd w k = w k := by
      intro k hk
      unfold toDumbVel
      rw [if_pos (by omega)]
    rw [mulVec_congr e, smul_mulVec]
    unfold toDumbForce
    rw [if_pos (by omega)]

theorem near_found {T : ScalarTable} {P : PosData} {k : ℝ} (h : Tabulated T.lam P k) :
    Found T (P.Ns + 2 * P.Nd) P.beadSize (openLink k P.beadPos P.beadSize) := by
  intro x hx y hy hl
  rw [lamIndex_ne_none, beadSize_eq]
  rw [beadSize_eq, beadPos_eq] at hl
  exact h x hx y hy hl

theorem near_links {P : PosData} {k : ℝ} (hP : Sensible P) (hk : 0 < k) :
    Links (P.Ns + 2 * P.Nd) P.beadSize
      (close_particles (P.Ns + 2 * P.Nd) P.beadPos P.beadSize k) (openLink k P.beadPos P.beadSize) := by
  apply close_links hk
  · intro x hx; rw [beadSize_eq]; exact hP.radius_pos x hx
  · intro x hx y hy e; rw [beadPos_eq]
    exact lt_trans (by positivity) (hP.apart x hx y hy e)

/-- Every entry of the bead-coordinate near-field matrix. -/
theorem near_entry {T : ScalarTable} {P : PosData} {k : ℝ} (hP : Sensible P) (hk : 0 < k)
    (hT : Tabulated T.lam P k) (bb : Bool) :
    ∃ M, generate_R2Bexact_loop T (NDMat.zeros (side P) (side P)) P.Ns P.Nd P.beadSize bb
        (close_particles (beads P) P.beadPos P.beadSize k) = some M ∧ M.rows = side P ∧ M.cols = side P ∧
      (∀ i j, M.get i j = M.get j i) ∧
      ∀ x c1 y c2, HasRow P.Ns P.Nd x c1 → HasRow P.Ns P.Nd y c2 →
        M.get (row P.Ns x c1) (row P.Ns y c2)
        = systemNear P.Ns (beads P) bb (radius P) (tableScal T) (openLink k (centre P) (radius P))
            x c1 y c2 := by
  obtain ⟨M, h1, h2, h3, h4, h5⟩ := r2b_entry (bb := bb) (near_links hP hk) (near_found hT)
    (fun x hx => by rw [beadSize_eq]; exact (hP.radius_pos x hx).ne') (side P) (side P)
  refine ⟨M, h1, h2, h3, h4, ?_⟩
  intro x c1 y c2 hx hy
  rw [h5 x c1 y c2 hx hy, beadSize_eq, beadPos_eq]
  rfl

/-- A size ratio that is needed but missing. -/
theorem near_missing {T : ScalarTable} {P : PosData} {k : ℝ} (bb : Bool) (mu : ℝ)
    {x y : ℕ} (hx : x < beads P) (hy : y < beads P) (hxy : x ≠ y)
    (hl : openLink k (centre P) (radius P) x y ≠ none)
    (hm : ∀ t ∈ T.lam, ¬ |t - radius P y / radius P x| ≤ 1 / 10 ^ 8 + 1 / 10 ^ 5 * |radius P y / radius P x|) :
    generate_R2Bexact T P k mu bb = none := by
  have hnone : lamIndex T (radius P y / radius P x) = none := by
    by_contra h
    obtain ⟨t, ht, h⟩ := lamIndex_ne_none.mp h
    exact hm t ht h
  have hlt : len (fun i => centre P y i - centre P x i) / ((radius P x + radius P y) / 2) < 2 * k := by
    unfold openLink at hl
    dsimp only at hl
    by_contra h
    rw [if_neg h] at hl
    exact hl rfl
  unfold generate_R2Bexact R2BexactOfPairs generate_R2Bexact_loop
  have key : (close_particles (P.Ns + 2 * P.Nd) P.beadPos P.beadSize k).foldlM
      (r2bStep T P.Ns P.Nd P.beadSize bb
        (close_particles (P.Ns + 2 * P.Nd) P.beadPos P.beadSize k))
      (NDMat.zeros (11 * P.Ns + 6 * P.Nd) (11 * P.Ns + 6 * P.Nd)) = none := by
    rcases Nat.lt_or_gt_of_ne hxy with h | h
    · refine foldlM_none _ _ (closePair P.beadPos P.beadSize x y) (closePair_mem h.le hy ?_) ?_ _
      · rw [distance_eq, beadPos_eq, beadSize_eq]; exact hlt
      · intro D
        unfold r2bStep
        have : (closePair P.beadPos P.beadSize x y).ratio = radius P y / radius P x := by
          rw [← beadSize_eq]; rfl
        rw [this, hnone]; rfl
    · refine foldlM_none _ _ (closePair P.beadPos P.beadSize y x) (closePair_mem h.le hx ?_) ?_ _
      · rw [distance_eq, beadPos_eq, beadSize_eq, add_comm,
          show (fun m => centre P x m - centre P y m) = -(fun m => centre P y m - centre P x m) by
            funext m; simp, len_neg]
        exact hlt
      · intro D
        unfold r2bStep
        have : 1 / (closePair P.beadPos P.beadSize y x).ratio = radius P y / radius P x := by
          rw [← beadSize_eq]
          show 1 / (P.beadSize x / P.beadSize y) = _
          rw [one_div_div]
        rw [this, hnone]
        cases lamIndex T (closePair P.beadPos P.beadSize y x).ratio <;> rfl
  dsimp only
  rw [key]
  rfl

end SD
