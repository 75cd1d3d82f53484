import Verif.Lemmas.R2B

/-!
# The near-field loop as a whole
-/

set_option autoImplicit false

namespace SD

open Spec

/-- Whether the pair of beads interacts through the near field at all. -/
def interacts (Ns : ℕ) (bb : Bool) (x y : ℕ) : Prop := bb = true ∨ x < Ns ∨ y < Ns ∨ x = y

theorem writeAt_rows (D : NDMat) (rc : ℕ × ℕ) (h w : ℕ) (f : ℕ → ℕ → ℝ) :
    (writeAt D rc h w f).rows = D.rows := rfl

theorem writeAt_cols (D : NDMat) (rc : ℕ × ℕ) (h w : ℕ) (f : ℕ → ℕ → ℝ) :
    (writeAt D rc h w f).cols = D.cols := rfl

section
variable {T : ScalarTable} {Ns Nd : ℕ} {size : ℕ → ℝ} {bb : Bool} {ps : List ClosePair}
  {link : ℕ → ℕ → Option ((Fin 3 → ℝ) × ℝ)} (hL : Links (Ns + 2 * Nd) size ps link)
  (hT : Found T (Ns + 2 * Nd) size link) (h0 : ∀ x < Ns + 2 * Nd, size x ≠ 0)
include hL hT h0

open Classical in
theorem r2bStep_get (D : NDMat) {p : ClosePair} (hp : p ∈ ps) :
    ∃ D', r2bStep T Ns Nd size bb ps D p = some D' ∧ D'.rows = D.rows ∧ D'.cols = D.cols ∧
      ∀ kx ky x y i j, owns Ns Nd kx x → owns Ns Nd ky y → i < kx.dim → j < ky.dim → before kx x ky y →
        D'.get (base Ns Nd kx x + i) (base Ns Nd ky y + j)
          = if touches p.i p.j x y ∧ interacts Ns bb x y
            then nVal T Ns (Ns + 2 * Nd) bb size link kx x ky y i j
            else D.get (base Ns Nd kx x + i) (base Ns Nd ky y + j) := by
  have hr := hL.range p hp
  have hlam : lamIndex T p.ratio ≠ none := by
    rw [hL.ratio p hp]
    refine hT p.i (by omega) p.j hr.2 ?_
    by_cases h : p.i = p.j
    · exact Or.inl h
    · right; rw [hL.fwd p hp h]; simp
  have hlamr : lamIndex T (1 / p.ratio) ≠ none := by
    rw [hL.ratio p hp, one_div_div]
    refine hT p.j hr.2 p.i (by omega) ?_
    by_cases h : p.i = p.j
    · exact Or.inl h.symm
    · right; rw [hL.bwd p hp h]; simp
  obtain ⟨l, hl⟩ := Option.ne_none_iff_exists'.mp hlam
  obtain ⟨lr, hlr⟩ := Option.ne_none_iff_exists'.mp hlamr
  have hl' := hl
  have hlr' := hlr
  rw [hL.ratio p hp] at hl'
  rw [hL.ratio p hp, one_div_div] at hlr'
  unfold r2bStep
  rw [hl, hlr]
  simp only [Option.bind_eq_bind, Option.bind_some]
  obtain ⟨nb, hnb, hunit, hsum⟩ := neighbours_sum hL hT p.i (by omega)
  have whole : ∀ {x y : ℕ} {kx ky : Kind} {i j : ℕ} (E F : ℝ),
      (touches p.i p.j x y → interacts Ns bb x y) →
      E = (if touches p.i p.j x y then nVal T Ns (Ns + 2 * Nd) bb size link kx x ky y i j else F) →
      E = if touches p.i p.j x y ∧ interacts Ns bb x y then
        nVal T Ns (Ns + 2 * Nd) bb size link kx x ky y i j else F := by
    intro x y kx ky i j E F h e
    rw [e]
    refine if_congr ?_ rfl rfl
    exact ⟨fun t => ⟨t, h t⟩, fun t => t.1⟩
  by_cases hi : p.i < Ns
  · have si : is_sphere p.i Ns = true := by simp [is_sphere, hi]
    have hint : ∀ x y, touches p.i p.j x y → interacts Ns bb x y := by
      intro x y h; unfold touches at h; unfold interacts; omega
    by_cases hj : p.j < Ns
    · have sj : is_sphere p.j Ns = true := by simp [is_sphere, hj]
      rw [si, sj]
      simp only [Bool.and_self, if_true]
      by_cases e : p.i = p.j
      · rw [if_pos e, hnb]
        refine ⟨_, rfl, rfl, rfl, ?_⟩
        intro kx ky x y i j ox oy hdi hdj hb
        apply whole _ _ (hint x y)
        rw [← e, selfSphere_eq (bb := bb) (Nd := Nd) hunit hsum]
        exact self_chain (nVal T Ns (Ns + 2 * Nd) bb size link) ox oy hdi hdj hb D hi
      · rw [if_neg e]
        refine ⟨_, rfl, ?_⟩
        have hlt : p.i < p.j := by omega
        have eq := sphereSphereNear_eq (bb := bb) (Ns := Ns) (Nd := Nd) (n := Ns + 2 * Nd)
          (hL.fwd p hp e) (hL.bwd p hp e) hl' hlr' (hL.unit p hp e) hlt hj (h0 _ (by omega)) D
        rw [hL.ratio p hp, eq]
        dsimp only
        refine ⟨by simp only [writeAt_rows], by simp only [writeAt_cols], ?_⟩
        intro kx ky x y i j ox oy hdi hdj hb
        apply whole _ _ (hint x y)
        exact pair_chain (nVal T Ns (Ns + 2 * Nd) bb size link) ox oy hdi hdj hb D hlt hj
    · have sj : is_sphere p.j Ns = false := by simp [is_sphere]; omega
      have hlt : p.i < p.j := by omega
      rw [si, sj]
      simp only [Bool.and_false, Bool.true_and, Bool.false_eq_true, if_false]
      by_cases hj1 : p.j < Ns + Nd
      · have b1 : is_dumbbell_bead_1 p.j Ns Nd = true := by
          simp [is_dumbbell_bead_1]; omega
        rw [b1, if_pos rfl]
        refine ⟨_, rfl, rfl, rfl, ?_⟩
        intro kx ky x y i j ox oy hdi hdj hb
        apply whole _ _ (hint x y)
        rw [sphereBeadNear_eq (bb := bb) (Ns := Ns) (n := Ns + 2 * Nd) (hL.fwd p hp hlt.ne) hl' hlr' .B1
          (Or.inl rfl) hlt hi]
        have K1 : (submatrix_coords_tuple p.i p.j Ns Nd).M14 = (base Ns Nd .F p.i, base Ns Nd .B1 p.j) := rfl
        have K2 : (submatrix_coords_tuple p.i p.j Ns Nd).M24 = (base Ns Nd .T p.i, base Ns Nd .B1 p.j) := rfl
        have K3 : (submatrix_coords_tuple p.i p.j Ns Nd).M34 = (base Ns Nd .S p.i, base Ns Nd .B1 p.j) := rfl
        rw [K1, K2, K3]
        exact bead_chain (nVal T Ns (Ns + 2 * Nd) bb size link) ox oy hdi hdj hb D (Or.inl rfl) hi
          ⟨by omega, hj1⟩
      · have b1 : is_dumbbell_bead_1 p.j Ns Nd = false := by
          simp [is_dumbbell_bead_1]; omega
        rw [b1]
        simp only [Bool.false_eq_true, if_false, if_true]
        refine ⟨_, rfl, rfl, rfl, ?_⟩
        intro kx ky x y i j ox oy hdi hdj hb
        apply whole _ _ (hint x y)
        rw [sphereBeadNear_eq (bb := bb) (Ns := Ns) (n := Ns + 2 * Nd) (hL.fwd p hp hlt.ne) hl' hlr' .B2
          (Or.inr rfl) hlt hi]
        have K1 : (submatrix_coords_tuple p.i p.j Ns Nd).M15 = (base Ns Nd .F p.i, base Ns Nd .B2 p.j) := rfl
        have K2 : (submatrix_coords_tuple p.i p.j Ns Nd).M25 = (base Ns Nd .T p.i, base Ns Nd .B2 p.j) := rfl
        have K3 : (submatrix_coords_tuple p.i p.j Ns Nd).M35 = (base Ns Nd .S p.i, base Ns Nd .B2 p.j) := rfl
        rw [K1, K2, K3]
        exact bead_chain (nVal T Ns (Ns + 2 * Nd) bb size link) ox oy hdi hdj hb D (Or.inr rfl) hi
          ⟨by omega, by omega⟩
  · have hjn : ¬ p.j < Ns := by omega
    have si : is_sphere p.i Ns = false := by simp [is_sphere]; omega
    rw [si]
    simp only [Bool.false_and, Bool.false_eq_true, if_false]
    -- the self block of a bead
    have hself : ∀ (k : Kind) (K : ℕ × ℕ), p.i = p.j → (k = .B1 ∨ k = .B2) → owns Ns Nd k p.i →
        K = (base Ns Nd k p.i, base Ns Nd k p.i) → ∀ kx ky x y i j, owns Ns Nd kx x → owns Ns Nd ky y →
        i < kx.dim → j < ky.dim → before kx x ky y →
        (r2bSelfBead T D K nb (size p.i)).get (base Ns Nd kx x + i) (base Ns Nd ky y + j)
          = if touches p.i p.j x y ∧ interacts Ns bb x y
            then nVal T Ns (Ns + 2 * Nd) bb size link kx x ky y i j
            else D.get (base Ns Nd kx x + i) (base Ns Nd ky y + j) := by
      intro k K e hk ho hK kx ky x y i j ox oy hdi hdj hb
      apply whole
      · intro h; unfold touches at h; unfold interacts; omega
      · have hc : ∀ j, compOf k j = .f (f3 j) := by rcases hk with rfl | rfl <;> exact fun _ => rfl
        have eV : nVal T Ns (Ns + 2 * Nd) bb size link k p.i k p.i = fun i j =>
            nbSum nb fun n => Af T 0 n.d n.lam n.s (f3 i) (f3 j) * (6 * Real.pi * size p.i) := by
          funext i j
          unfold nVal
          rw [nVal_self_sum hsum, hc, hc]
          exact nbSum_congr fun m hm => by rw [Af_direct]; rfl
        unfold r2bSelfBead
        rw [← eV, hK, ← e]
        refine beads_chain (nVal T Ns (Ns + 2 * Nd) bb size link) ox oy hdi hdj hb D ?_ le_rfl ho ho
        rcases hk with rfl | rfl <;> simp
    have hpair : ∀ (ku kv : Kind) (K : ℕ × ℕ), p.i ≠ p.j →
        ((ku = .B1 ∧ kv = .B1) ∨ (ku = .B1 ∧ kv = .B2) ∨ (ku = .B2 ∧ kv = .B2)) →
        owns Ns Nd ku p.i → owns Ns Nd kv p.j → K = (base Ns Nd ku p.i, base Ns Nd kv p.j) →
        ∀ kx ky x y i j, owns Ns Nd kx x → owns Ns Nd ky y →
        i < kx.dim → j < ky.dim → before kx x ky y →
        (r2bBeadBead T D K (fun k => p.disp k / p.dist) l p.dist (size p.i) bb).get
          (base Ns Nd kx x + i) (base Ns Nd ky y + j)
          = if touches p.i p.j x y ∧ interacts Ns bb x y
            then nVal T Ns (Ns + 2 * Nd) bb size link kx x ky y i j
            else D.get (base Ns Nd kx x + i) (base Ns Nd ky y + j) := by
      intro ku kv K e hk ho ho' hK kx ky x y i j ox oy hdi hdj hb
      unfold r2bBeadBead
      cases hbb : bb with
      | true =>
        subst hbb
        rw [if_pos rfl]
        apply whole
        · intro h; exact Or.inl rfl
        · have hc : ∀ j, compOf ku j = .f (f3 j) := by
            rcases hk with ⟨rfl, rfl⟩ | ⟨rfl, rfl⟩ | ⟨rfl, rfl⟩ <;> exact fun _ => rfl
          have hc' : ∀ j, compOf kv j = .f (f3 j) := by
            rcases hk with ⟨rfl, rfl⟩ | ⟨rfl, rfl⟩ | ⟨rfl, rfl⟩ <;> exact fun _ => rfl
          have eV : nVal T Ns (Ns + 2 * Nd) true size link ku p.i kv p.j = fun i j =>
              Af T 1 (fun k => p.disp k / p.dist) l p.dist (f3 i) (f3 j) * (6 * Real.pi * size p.i) := by
            funext i j
            rw [nVal_fwd (hL.fwd p hp e) hl' hlr' (by omega) (by simp), Af_direct, hc, hc']
            rfl
          rw [← eV, hK]
          exact beads_chain (nVal T Ns (Ns + 2 * Nd) true size link) ox oy hdi hdj hb D hk hr.1 ho ho'
      | false =>
        rw [if_neg (by simp), if_neg]
        rintro ⟨h1, h2⟩
        unfold touches at h1
        unfold interacts at h2
        rcases h2 with h2 | h2
        · simp at h2
        · omega
    have dimP : ∀ K, (r2bBeadBead T D K (fun k => p.disp k / p.dist) l p.dist (size p.i) bb).rows = D.rows ∧
        (r2bBeadBead T D K (fun k => p.disp k / p.dist) l p.dist (size p.i) bb).cols = D.cols := by
      intro K; unfold r2bBeadBead; split_ifs <;> exact ⟨rfl, rfl⟩
    by_cases hi1 : p.i < Ns + Nd
    · have bi : is_dumbbell_bead_1 p.i Ns Nd = true := by simp [is_dumbbell_bead_1]; omega
      have oi : owns Ns Nd .B1 p.i := ⟨by omega, hi1⟩
      by_cases hj1 : p.j < Ns + Nd
      · have bj : is_dumbbell_bead_1 p.j Ns Nd = true := by simp [is_dumbbell_bead_1]; omega
        have oj : owns Ns Nd .B1 p.j := ⟨by omega, hj1⟩
        rw [bi, bj]
        simp only [Bool.and_self, if_true]
        by_cases e : p.i = p.j
        · rw [if_pos e, hnb]
          exact ⟨_, rfl, rfl, rfl, hself .B1 _ e (Or.inl rfl) oi (by rw [← e]; rfl)⟩
        · rw [if_neg e]
          exact ⟨_, rfl, (dimP _).1, (dimP _).2, hpair .B1 .B1 _ e (by simp) oi oj rfl⟩
      · have bj : is_dumbbell_bead_1 p.j Ns Nd = false := by simp [is_dumbbell_bead_1]; omega
        have bj2 : is_dumbbell_bead_2 p.j Ns Nd = true := by simp [is_dumbbell_bead_2]; omega
        have oj : owns Ns Nd .B2 p.j := ⟨by omega, by omega⟩
        rw [bi, bj, bj2]
        simp only [Bool.and_false, Bool.and_self, Bool.false_eq_true, if_false, if_true]
        exact ⟨_, rfl, (dimP _).1, (dimP _).2, hpair .B1 .B2 _ (by omega) (by simp) oi oj rfl⟩
    · have bi : is_dumbbell_bead_1 p.i Ns Nd = false := by simp [is_dumbbell_bead_1]; omega
      have oi : owns Ns Nd .B2 p.i := ⟨by omega, by omega⟩
      have oj : owns Ns Nd .B2 p.j := ⟨by omega, by omega⟩
      rw [bi]
      simp only [Bool.false_and, Bool.false_eq_true, if_false]
      by_cases e : p.i = p.j
      · rw [if_pos e, hnb]
        exact ⟨_, rfl, rfl, rfl, hself .B2 _ e (Or.inr rfl) oi (by rw [← e]; rfl)⟩
      · rw [if_neg e]
        exact ⟨_, rfl, (dimP _).1, (dimP _).2, hpair .B2 .B2 _ e (by simp) oi oj rfl⟩

open Classical in
theorem r2bFold_get (qs : List ClosePair) (hq : ∀ p ∈ qs, p ∈ ps) (D : NDMat) :
    ∃ D', qs.foldlM (r2bStep T Ns Nd size bb ps) D = some D' ∧ D'.rows = D.rows ∧ D'.cols = D.cols ∧
      ∀ kx ky x y i j, owns Ns Nd kx x → owns Ns Nd ky y → i < kx.dim → j < ky.dim → before kx x ky y →
        D'.get (base Ns Nd kx x + i) (base Ns Nd ky y + j)
          = if (∃ p ∈ qs, touches p.i p.j x y) ∧ interacts Ns bb x y
            then nVal T Ns (Ns + 2 * Nd) bb size link kx x ky y i j
            else D.get (base Ns Nd kx x + i) (base Ns Nd ky y + j) := by
  induction qs generalizing D with
  | nil => exact ⟨D, rfl, rfl, rfl, by simp⟩
  | cons p qs ih =>
    obtain ⟨D1, e1, r1, c1, g1⟩ := r2bStep_get (bb := bb) hL hT h0 D (hq p (by simp))
    obtain ⟨D2, e2, r2, c2, g2⟩ := ih (fun q h => hq q (by simp [h])) D1
    refine ⟨D2, ?_, r2.trans r1, c2.trans c1, ?_⟩
    · rw [List.foldlM_cons, e1]; exact e2
    · intro kx ky x y i j ox oy hi hj hb
      rw [g2 kx ky x y i j ox oy hi hj hb, g1 kx ky x y i j ox oy hi hj hb]
      by_cases hI : interacts Ns bb x y
      · by_cases h1 : ∃ q ∈ qs, touches q.i q.j x y
        · obtain ⟨q, hq, ht⟩ := h1
          have h2 : ∃ q ∈ p :: qs, touches q.i q.j x y := ⟨q, by simp [hq], ht⟩
          rw [if_pos ⟨⟨q, hq, ht⟩, hI⟩, if_pos ⟨h2, hI⟩]
        · rw [if_neg (fun h => h1 h.1)]
          refine if_congr ?_ rfl rfl
          constructor
          · rintro ⟨h, -⟩; exact ⟨⟨p, by simp, h⟩, hI⟩
          · rintro ⟨⟨q, hq, h⟩, _⟩
            rcases List.mem_cons.mp hq with rfl | hq
            · exact ⟨h, hI⟩
            · exact absurd ⟨q, hq, h⟩ h1
      · rw [if_neg (fun h => hI h.2), if_neg (fun h => hI h.2), if_neg (fun h => hI h.2)]

end

theorem nearSelf_symm (z : Scalars) (a : ℝ) {d : Fin 3 → ℝ} (hd : dotp d d = 1) (c1 c2 : Comp) :
    nearSelf z a d c1 c2 = nearSelf z a d c2 c1 := by
  unfold nearSelf
  rcases lt_trichotomy (order c1) (order c2) with h | h | h
  · rw [if_neg (by omega), if_pos (by omega)]
  · rw [if_pos (by omega), if_pos (by omega), nearDirect_symm z a hd _ _ h]
  · rw [if_pos (by omega), if_neg (by omega)]

theorem dotp_neg_neg (d : Fin 3 → ℝ) : dotp (fun i => -d i) (fun i => -d i) = dotp d d := by
  simp [dotp]

theorem nearPair_recip (zab zba : Scalars) (P Q : Prop) [Decidable P] [Decidable Q] (hPQ : P ↔ ¬ Q)
    (a b : ℝ) (d : Fin 3 → ℝ) (c1 c2 : Comp) :
    nearPair zab zba P a b d c1 c2 = nearPair zba zab Q b a (fun i => -d i) c2 c1 := by
  have nn : (fun i => - -d i) = d := by funext i; simp
  unfold nearPair
  rcases lt_trichotomy (order c1) (order c2) with h | h | h
  · rw [if_neg (by omega), if_pos (by omega)]
  · by_cases hQ : Q
    · have : ¬ P := fun hP => hPQ.mp hP hQ
      rw [if_neg (by simp [h, this]), if_pos (by simp [h, hQ])]
    · have : P := hPQ.mpr hQ
      rw [if_pos (by simp [h, this]), if_neg (by simp [h, hQ]), nn]
  · rw [if_pos (by omega), if_neg (by omega), nn]

/-- Links are unit vectors, the same both ways. -/
def Mutual (n : ℕ) (link : ℕ → ℕ → Option ((Fin 3 → ℝ) × ℝ)) : Prop :=
  ∀ x < n, ∀ y < n, x ≠ y →
    (link x y = none ∧ link y x = none) ∨
    ∃ d s, dotp d d = 1 ∧ link x y = some (d, s) ∧ link y x = some (fun k => -d k, s)

theorem systemNear_symm {Ns n : ℕ} {bb : Bool} {size : ℕ → ℝ} {scal : ℕ → ℝ → ℝ → Scalars}
    {link : ℕ → ℕ → Option ((Fin 3 → ℝ) × ℝ)} (hM : Mutual n link) {x y : ℕ} (hx : x < n) (hy : y < n)
    (c1 c2 : Comp) :
    systemNear Ns n bb size scal link x c1 y c2 = systemNear Ns n bb size scal link y c2 x c1 := by
  by_cases e : x = y
  · subst e
    unfold systemNear
    rw [if_pos rfl, if_pos rfl]
    refine Finset.sum_congr rfl fun z hz => ?_
    split_ifs with hzx
    · rfl
    · rcases hM x hx z (Finset.mem_range.mp hz) (Ne.symm hzx) with ⟨h, -⟩ | ⟨d, s, hd, h, -⟩
      · rw [h]
      · rw [h]; exact nearSelf_symm _ _ hd _ _
  · by_cases hb : bb = false ∧ Ns ≤ x ∧ Ns ≤ y
    · unfold systemNear
      rw [if_neg e, if_neg (Ne.symm e), if_pos hb, if_pos (by tauto)]
    · rcases hM x hx y hy e with ⟨h1, h2⟩ | ⟨d, s, hd, h1, h2⟩
      · unfold systemNear
        rw [if_neg e, if_neg (Ne.symm e), if_neg hb, if_neg (by tauto), h1, h2]
      · rw [systemNear_pair e hb h1, systemNear_pair (Ne.symm e) (by tauto) h2]
        exact nearPair_recip _ _ _ _ (by omega) _ _ _ _ _

theorem Links.mutual {n : ℕ} {size : ℕ → ℝ} {ps : List ClosePair}
    {link : ℕ → ℕ → Option ((Fin 3 → ℝ) × ℝ)} (hL : Links n size ps link) : Mutual n link := by
  intro x hx y hy hxy
  by_cases h : ∃ p ∈ ps, touches p.i p.j x y
  · obtain ⟨p, hp, ht⟩ := h
    have hne : p.i ≠ p.j := by unfold touches at ht; omega
    right
    rcases ht with ⟨rfl, rfl⟩ | ⟨rfl, rfl⟩
    · exact ⟨_, _, hL.unit p hp hne, hL.fwd p hp hne, hL.bwd p hp hne⟩
    · refine ⟨_, _, ?_, hL.bwd p hp hne, ?_⟩
      · rw [dotp_neg_neg]; exact hL.unit p hp hne
      · rw [hL.fwd p hp hne]; simp
  · left
    refine ⟨hL.none x hx y hy hxy fun p hp ht => h ⟨p, hp, ht⟩,
      hL.none y hy x hx hxy.symm fun p hp ht => h ⟨p, hp, ?_⟩⟩
    unfold touches at ht ⊢
    omega

/-- Every entry of the near-field matrix. -/
theorem r2b_entry {T : ScalarTable} {Ns Nd : ℕ} {size : ℕ → ℝ} {bb : Bool} {ps : List ClosePair}
    {link : ℕ → ℕ → Option ((Fin 3 → ℝ) × ℝ)} (hL : Links (Ns + 2 * Nd) size ps link)
    (hT : Found T (Ns + 2 * Nd) size link) (h0 : ∀ x < Ns + 2 * Nd, size x ≠ 0) (n m : ℕ) :
    ∃ D, generate_R2Bexact_loop T (NDMat.zeros n m) Ns Nd size bb ps = some D ∧ D.rows = n ∧ D.cols = m ∧
      (∀ i j, D.get i j = D.get j i) ∧
      ∀ x c1 y c2, HasRow Ns Nd x c1 → HasRow Ns Nd y c2 → D.get (row Ns x c1) (row Ns y c2)
        = systemNear Ns (Ns + 2 * Nd) bb size (tableScal T) link x c1 y c2 := by
  classical
  obtain ⟨D, eD, rD, cD, gD⟩ := r2bFold_get (bb := bb) hL hT h0 ps (fun _ h => h) (NDMat.zeros n m)
  refine ⟨symmetrise D, ?_, rD, cD, symmetrise_symm D, ?_⟩
  · unfold generate_R2Bexact_loop; rw [eD]; rfl
  · have up : ∀ x c1 y c2, HasRow Ns Nd x c1 → HasRow Ns Nd y c2 →
        before (kindOf Ns Nd x c1) x (kindOf Ns Nd y c2) y →
        D.get (row Ns x c1) (row Ns y c2)
          = systemNear Ns (Ns + 2 * Nd) bb size (tableScal T) link x c1 y c2 := by
      intro x c1 y c2 hx hy hb
      have hxn := owns_lt (owns_kind hx)
      have hyn := owns_lt (owns_kind hy)
      rw [row_eq hx, row_eq hy, gD _ _ x y _ _ (owns_kind hx) (owns_kind hy) (idx_lt _ _ _ _)
        (idx_lt _ _ _ _) hb]
      unfold nVal
      rw [compOf_kind, compOf_kind]
      split_ifs with h
      · rfl
      · have hxy : x ≠ y := by
          rintro rfl
          obtain ⟨p, hp, h1, h2⟩ := hL.self x hxn
          exact h ⟨⟨p, hp, Or.inl ⟨h1.symm, h2.symm⟩⟩, Or.inr (Or.inr (Or.inr rfl))⟩
        show (0 : ℝ) = _
        unfold systemNear
        rw [if_neg hxy]
        by_cases hI : interacts Ns bb x y
        · have hl := hL.none x hxn y hyn hxy fun p hp ht => h ⟨⟨p, hp, ht⟩, hI⟩
          rw [hl]; simp
        · have : bb = false ∧ Ns ≤ x ∧ Ns ≤ y := by
            unfold interacts at hI
            push Not at hI
            exact ⟨by simpa using hI.1, by omega, by omega⟩
          rw [if_pos this]
    intro x c1 y c2 hx hy
    rcases before_total (owns_kind hx) (owns_kind hy) (idx_lt Ns Nd x c1) (idx_lt Ns Nd y c2)
      with ⟨h, hle⟩ | ⟨h, hle⟩
    · rw [← row_eq hx, ← row_eq hy] at hle
      rw [symmetrise_upper _ hle, up _ _ _ _ hx hy h]
    · rw [← row_eq hx, ← row_eq hy] at hle
      rw [symmetrise_symm, symmetrise_upper _ hle, up _ _ _ _ hy hx h]
      exact systemNear_symm hL.mutual (owns_lt (owns_kind hy)) (owns_lt (owns_kind hx)) c2 c1

end SD
