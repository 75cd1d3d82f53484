import Verif.Lemmas.Minfinity
import Verif.Lemmas.FarField

/-!
# Entries of the far-field matrix as Faxén responses
-/

set_option autoImplicit false

namespace SD

open Spec

/-- Row group of a component of bead `u`. -/
def kindOf (Ns Nd u : ℕ) : Comp → Kind
  | .f _ => if u < Ns then .F else if u < Ns + Nd then .B1 else .B2
  | .t _ => .T
  | .s _ => .S

/-- Number of a component in its group. -/
def idxOf : Comp → ℕ
  | .f i => i
  | .t i => i
  | .s p => p

theorem idx_lt (Ns Nd u : ℕ) (c : Comp) : idxOf c < (kindOf Ns Nd u c).dim := by
  cases c with
  | f i => simp only [idxOf, kindOf]; split_ifs <;> exact i.2
  | t i => exact i.2
  | s p => exact p.2

theorem owns_kind {Ns Nd u : ℕ} {c : Comp} (h : HasRow Ns Nd u c) :
    owns Ns Nd (kindOf Ns Nd u c) u := by
  cases c with
  | f i =>
    simp only [HasRow] at h
    simp only [kindOf]
    split_ifs <;> simp only [owns] <;> omega
  | t i => exact h
  | s p => exact h

theorem row_eq {Ns Nd u : ℕ} {c : Comp} (h : HasRow Ns Nd u c) :
    row Ns u c = base Ns Nd (kindOf Ns Nd u c) u + idxOf c := by
  cases c with
  | f i =>
    simp only [HasRow] at h
    simp only [kindOf, row, idxOf]
    split_ifs <;> simp only [base] <;> omega
  | t i => simp only [row, kindOf, base, idxOf]; omega
  | s p => simp only [row, kindOf, base, idxOf]; omega

theorem row_lt {Ns Nd u : ℕ} {c : Comp} (h : HasRow Ns Nd u c) :
    row Ns u c < 11 * Ns + 6 * Nd := by
  rw [row_eq h]; exact slot_lt (owns_kind h) (idx_lt _ _ _ _)

theorem row_inj {Ns Nd u v : ℕ} {c d : Comp} (h : HasRow Ns Nd u c) (h' : HasRow Ns Nd v d)
    (e : row Ns u c = row Ns v d) : u = v ∧ c = d := by
  rw [row_eq h, row_eq h'] at e
  obtain ⟨hk, hu, hi⟩ := slot_unique (owns_kind h) (owns_kind h') (idx_lt _ _ _ _) (idx_lt _ _ _ _) e
  subst hu
  refine ⟨rfl, ?_⟩
  cases c <;> cases d <;> simp only [idxOf, kindOf] at hk hi <;>
    first
      | (congr 1; exact Fin.ext hi)
      | (exfalso; split_ifs at hk)
      | (exfalso; cases hk)

theorem row_surj {Ns Nd i : ℕ} (h : i < 11 * Ns + 6 * Nd) :
    ∃ u c, HasRow Ns Nd u c ∧ row Ns u c = i := by
  by_cases h1 : i < 3 * Ns
  · refine ⟨i / 3, .f ⟨i % 3, by omega⟩, by simp only [HasRow]; omega, ?_⟩
    simp only [row]; rw [if_pos (by omega)]; omega
  by_cases h2 : i < 6 * Ns
  · exact ⟨(i - 3 * Ns) / 3, .t ⟨(i - 3 * Ns) % 3, by omega⟩, by simp only [HasRow]; omega,
      by simp only [row]; omega⟩
  by_cases h3 : i < 11 * Ns
  · exact ⟨(i - 6 * Ns) / 5, .s ⟨(i - 6 * Ns) % 5, by omega⟩, by simp only [HasRow]; omega,
      by simp only [row]; omega⟩
  · refine ⟨Ns + (i - 11 * Ns) / 3, .f ⟨(i - 11 * Ns) % 3, by omega⟩,
      by simp only [HasRow]; omega, ?_⟩
    simp only [row]; rw [if_neg (by omega)]; omega

theorem before_total {Ns Nd : ℕ} {kx ky : Kind} {x y p q : ℕ} (hx : owns Ns Nd kx x)
    (hy : owns Ns Nd ky y) (hp : p < kx.dim) (hq : q < ky.dim) :
    (before kx x ky y ∧ base Ns Nd kx x + p ≤ base Ns Nd ky y + q) ∨
      (before ky y kx x ∧ base Ns Nd ky y + q ≤ base Ns Nd kx x + p) := by
  rcases Nat.le_total (base Ns Nd kx x + p) (base Ns Nd ky y + q) with h | h
  · exact Or.inl ⟨before_le hx hy hp hq h, h⟩
  · exact Or.inr ⟨before_le hy hx hq hp h, h⟩

theorem len_neg (r : Vec3) : len (-r) = len r := by simp [len]

theorem len_smul {k : ℝ} (hk : 0 ≤ k) (r : Vec3) : len (fun i => k * r i) = k * len r := by
  unfold len
  have : ∑ i, (k * r i) ^ 2 = k ^ 2 * ∑ i, r i ^ 2 := by
    rw [Finset.mul_sum]; exact Finset.sum_congr rfl fun i _ => by ring
  rw [this, Real.sqrt_mul (sq_nonneg k), Real.sqrt_sq hk]

theorem len_zero : len 0 = 0 := by simp [len]

/-- The separation is at least the true one and at least 2.001 average radii. -/
theorem sep_len {r : Vec3} {a b : ℝ} (ha : 0 < a) (hb : 0 < b) (h : 0 < len r) :
    len (sep r a b) = max (len r) (2.001 * ((a + b) / 2)) := by
  unfold sep
  split_ifs with h1
  · rw [len_smul (by positivity), max_eq_right h1.le]
    field_simp
  · rw [max_eq_left (not_lt.mp h1)]

theorem sep_ne {r : Vec3} {a b : ℝ} (ha : 0 < a) (hb : 0 < b) (h : 1 / 10 ^ 8 < len r) :
    sep r a b ≠ 0 ∧ len (sep r a b) > eps10 := by
  have h0 : (0 : ℝ) < 1 / 10 ^ 8 := by positivity
  have h1 := sep_len ha hb (h0.trans h)
  have h2 : eps10 < len (sep r a b) := by
    rw [h1]
    refine lt_of_lt_of_le ?_ (le_max_left _ _)
    refine lt_trans ?_ h
    unfold eps10; norm_num
  refine ⟨?_, h2⟩
  intro e
  rw [e, len_zero] at h2
  exact absurd (eps10_pos.trans h2) (lt_irrefl _)

theorem pairMob_recip {r : Vec3} (h : r ≠ 0) (a b : ℝ) (c1 c2 : Comp) :
    pairMob a b c1 c2 r = pairMob b a c2 c1 (-r) := by
  have h' : -r ≠ 0 := neg_ne_zero.mpr h
  have e1 : ∀ l1 j, respTo a b l1 (.f j) r = response a b l1 (.force j) r := fun _ _ => rfl
  have e2 : ∀ l1 j, respTo a b l1 (.t j) r = response a b l1 (.torque j) r := fun _ _ => rfl
  have e1' : ∀ l1 j, respTo b a l1 (.f j) (-r) = response b a l1 (.force j) (-r) := fun _ _ => rfl
  have e2' : ∀ l1 j, respTo b a l1 (.t j) (-r) = response b a l1 (.torque j) (-r) := fun _ _ => rfl
  have e3 := fun l1 q => respTo_s h a b l1 q
  have e3' := fun l1 q => respTo_s h' b a l1 q
  have R := resp_recip h a b
  cases c1 <;> cases c2 <;> simp only [pairMob, e1, e2, e1', e2', e3, e3', R]
  rename_i p q
  fin_cases p <;> fin_cases q <;> simp [five] <;> ring

/-- Value of a block off the diagonal. -/
theorem mVal_pair (P : PosData) (c mu : ℝ) {x y : ℕ} {c1 c2 : Comp}
    (ha : 0 < P.beadSize x) (hb : 0 < P.beadSize y)
    (hd : 1 / 10 ^ 8 < len (P.beadPos x - P.beadPos y))
    (hbf : before (kindOf P.Ns P.Nd x c1) x (kindOf P.Ns P.Nd y c2) y) :
    mVal P c mu (kindOf P.Ns P.Nd x c1) x (kindOf P.Ns P.Nd y c2) y (idxOf c1) (idxOf c2)
      = c * pairMob (P.beadSize x) (P.beadSize y) c1 c2
          (sep (P.beadPos x - P.beadPos y) (P.beadSize x) (P.beadSize y)) := by
  have hrs := sep_spec ha hb hd
  have hr : rr P x y = sep (P.beadPos x - P.beadPos y) (P.beadSize x) (P.beadSize y) := hrs.1
  have hs : ss P x y = len (rr P x y) := by
    rw [hr]; exact hrs.2
  obtain ⟨h, hl⟩ := sep_ne ha hb hd
  rw [← hr] at h hl ⊢
  have i3 : ∀ i : Fin 3, f3 (i : ℕ) = i := fun i => Fin.ofNat_val_eq_self i
  have i5 : ∀ i : Fin 5, f5 (i : ℕ) = i := fun i => Fin.ofNat_val_eq_self i
  have hf : ∀ u i, kindOf P.Ns P.Nd u (.f i) = .F ∨ kindOf P.Ns P.Nd u (.f i) = .B1
      ∨ kindOf P.Ns P.Nd u (.f i) = .B2 := by
    intro u i; simp only [kindOf]; split_ifs <;> simp
  have kt : ∀ u i, kindOf P.Ns P.Nd u (.t i) = .T := fun _ _ => rfl
  have ks : ∀ u i, kindOf P.Ns P.Nd u (.s i) = .S := fun _ _ => rfl
  cases c1 with
  | f i =>
    cases c2 with
    | f j =>
      rcases hf x i with e | e | e <;> rcases hf y j with e' | e' | e' <;>
      · rw [e, e']
        simp only [mVal, idxOf, blkM11, i3, pairMob, respTo, hs]
        exact M11_resp h hl _ _ c mu i j
    | t j =>
      rw [kt] at hbf ⊢
      rcases hf x i with e | e | e <;> rw [e] at hbf ⊢
      · simp only [mVal, idxOf, i3, pairMob, respTo, hs]
        exact M12_resp h hl _ _ c mu i j
      · exact hbf.elim
      · exact hbf.elim
    | s q =>
      rw [ks] at hbf ⊢
      rcases hf x i with e | e | e <;> rw [e] at hbf ⊢
      · simp only [mVal, idxOf, i3, i5, pairMob, hs]
        rw [respTo_s h, con_M13_row_five, ← five_mul]
        simp only [M13_resp h hl]
      · exact hbf.elim
      · exact hbf.elim
  | t i =>
    rw [kt] at hbf ⊢
    cases c2 with
    | f j =>
      rcases hf y j with e | e | e <;> rw [e] at hbf ⊢
      · exact hbf.elim
      all_goals
        simp only [mVal, idxOf, i3, pairMob, respTo, hs]
        exact M12_resp' h hl _ _ c mu i j
    | t j =>
      rw [kt] at hbf ⊢
      simp only [mVal, idxOf, i3, pairMob, respTo, hs]
      exact M22_resp h hl _ _ c mu i j
    | s q =>
      rw [ks] at hbf ⊢
      simp only [mVal, idxOf, i3, i5, pairMob, hs]
      rw [respTo_s h, con_M23_row_five, ← five_mul]
      simp only [M23_resp h hl]
  | s p =>
    rw [ks] at hbf ⊢
    cases c2 with
    | f j =>
      rcases hf y j with e | e | e <;> rw [e] at hbf ⊢
      · exact hbf.elim
      all_goals
        simp only [mVal, idxOf, i3, i5, pairMob, respTo, hs]
        rw [condense53_five, ← five_mul]
        simp only [M13_resp' h hl]
    | t j => exact hbf.elim
    | s q =>
      rw [ks] at hbf ⊢
      simp only [mVal, idxOf, i5, pairMob, hs]
      rw [if_neg (not_le.mpr hl), condense55_five, ← five_mul]
      simp only [respTo_s h, ← five_mul, M33_resp h]

/-- Value of a block on the diagonal. -/
theorem mVal_self (P : PosData) (bb : Bool) (c mu : ℝ) {x : ℕ} {c1 c2 : Comp}
    (hx : HasRow P.Ns P.Nd x c1) (hy : HasRow P.Ns P.Nd x c2)
    (hbf : before (kindOf P.Ns P.Nd x c1) x (kindOf P.Ns P.Nd x c2) x) :
    (mWritten P bb (kindOf P.Ns P.Nd x c1) x (kindOf P.Ns P.Nd x c2) x (idxOf c1) (idxOf c2) →
      mVal P c mu (kindOf P.Ns P.Nd x c1) x (kindOf P.Ns P.Nd x c2) x (idxOf c1) (idxOf c2)
        = selfMob mu (P.beadSize x) c1 c2) ∧
    (¬ mWritten P bb (kindOf P.Ns P.Nd x c1) x (kindOf P.Ns P.Nd x c2) x (idxOf c1) (idxOf c2) →
      selfMob mu (P.beadSize x) c1 c2 = 0) := by
  have hr := rr_self P x
  have hs := ss_self P x
  have i3 : ∀ i : Fin 3, f3 (i : ℕ) = i := fun i => Fin.ofNat_val_eq_self i
  have i5 : ∀ i : Fin 5, f5 (i : ℕ) = i := fun i => Fin.ofNat_val_eq_self i
  have kt : ∀ u i, kindOf P.Ns P.Nd u (.t i) = .T := fun _ _ => rfl
  have ks : ∀ u i, kindOf P.Ns P.Nd u (.s i) = .S := fun _ _ => rfl
  have n1 : ¬ ((0 : ℝ) > eps10) := not_lt.mpr eps10_pos.le
  have n2 : ¬ (|(0 : Vec3) 0| + |(0 : Vec3) 1| + |(0 : Vec3) 2| > eps10) := by
    simpa using n1
  have n3 : (0 : ℝ) ≤ eps10 := eps10_pos.le
  have kf : ∀ i, kindOf P.Ns P.Nd x (.f i) =
    if x < P.Ns then .F else if x < P.Ns + P.Nd then .B1 else .B2 := fun _ => rfl
  cases c1 with
  | f i =>
    cases c2 with
    | f j =>
      rw [kf, kf]
      split_ifs
      all_goals
        refine ⟨fun _ => ?_, fun hn => ?_⟩
        · simp only [mVal, idxOf, blkM11, i3, selfMob, hs, M11, if_neg n1, kron]
          split_ifs <;> simp
        · simp [mWritten] at hn
    | t j =>
      rw [kf, kt, if_pos (show x < P.Ns from hy)] at *
      refine ⟨fun _ => ?_, fun hn => ?_⟩
      · simp only [mVal, idxOf, i3, selfMob, hs, M12, if_neg n1]
      · simp [mWritten] at hn
    | s q =>
      rw [kf, ks, if_pos (show x < P.Ns from hy)] at *
      refine ⟨fun _ => ?_, fun hn => ?_⟩
      · simp only [mVal, idxOf, i3, i5, selfMob, hs]
        rw [con_M13_row_five]
        simp only [M13, if_neg n1]
        fin_cases q <;> simp [five]
      · simp [mWritten] at hn
  | t i =>
    cases c2 with
    | f j => rw [kf, kt, if_pos (show x < P.Ns from hx)] at *; exact hbf.elim
    | t j =>
      rw [kt, kt] at *
      refine ⟨fun _ => ?_, fun hn => ?_⟩
      · simp only [mVal, idxOf, i3, selfMob, hs, hr, M22, if_neg n2, kron]
        split_ifs <;> simp
      · simp [mWritten] at hn
    | s q =>
      rw [kt, ks] at *
      refine ⟨fun _ => ?_, fun hn => ?_⟩
      · simp only [mVal, idxOf, i3, i5, selfMob, hs, hr]
        rw [con_M23_row_five]
        simp only [M23, if_neg n2]
        fin_cases q <;> simp [five]
      · simp [mWritten] at hn
  | s p =>
    cases c2 with
    | f j => rw [kf, ks, if_pos (show x < P.Ns from hx)] at *; exact hbf.elim
    | t j => exact hbf.elim
    | s q =>
      rw [ks, ks]
      simp only [mWritten, idxOf, mVal, hs, selfMob, n3, true_imp_iff, Fin.val_inj]
      exact ⟨fun h => by rw [if_pos h, if_pos trivial], fun h => by rw [if_neg h]⟩

/-- Entries whose row group comes first. -/
theorem minf_upper (P : PosData) (mu : ℝ) (bb : Bool) (hsz : ∀ x < P.Ns + 2 * P.Nd, 0 < P.beadSize x)
    (hsep : ∀ x < P.Ns + 2 * P.Nd, ∀ y < P.Ns + 2 * P.Nd, x ≠ y →
      1 / 10 ^ 8 < len (P.beadPos x - P.beadPos y))
    {x y : ℕ} {c1 c2 : Comp} (hx : HasRow P.Ns P.Nd x c1) (hy : HasRow P.Ns P.Nd y c2) (n m : ℕ)
    (hbf : before (kindOf P.Ns P.Nd x c1) x (kindOf P.Ns P.Nd y c2) y) :
    ((pairs (P.Ns + 2 * P.Nd)).foldl (minfStep P (1 / (8 * Real.pi * mu)) mu bb)
      (NDMat.zeros n m)).get (row P.Ns x c1) (row P.Ns y c2)
    = systemMob P.Ns bb P.beadPos P.beadSize mu x c1 y c2 := by
  have ox := owns_kind hx
  have oy := owns_kind hy
  rw [row_eq hx, row_eq hy, minfLoop_get P _ mu bb n m ox oy (idx_lt _ _ _ _) (idx_lt _ _ _ _) hbf]
  unfold systemMob
  by_cases e : x = y
  · subst e
    rw [if_pos rfl]
    obtain ⟨h1, h2⟩ := mVal_self P bb (1 / (8 * Real.pi * mu)) mu hx hy hbf
    split_ifs with hw
    · exact h1 hw
    · exact (h2 hw).symm
  · rw [if_neg e]
    have hxn := owns_lt ox
    have hyn := owns_lt oy
    have hd := hsep x hxn y hyn e
    have hv := mVal_pair P (1 / (8 * Real.pi * mu)) mu (hsz x hxn) (hsz y hyn) hd hbf
    rw [hv]
    have hss : ¬ ss P x y ≤ eps10 := by
      rw [not_le]; unfold ss; rw [(sep_spec (hsz x hxn) (hsz y hyn) hd).2]
      exact (sep_ne (hsz x hxn) (hsz y hyn) hd).2
    have hw : mWritten P bb (kindOf P.Ns P.Nd x c1) x (kindOf P.Ns P.Nd y c2) y (idxOf c1) (idxOf c2)
        ↔ ¬ (bb = false ∧ P.Ns ≤ x ∧ P.Ns ≤ y) := by
      generalize kindOf P.Ns P.Nd x c1 = kx at *
      generalize kindOf P.Ns P.Nd y c2 = ky at *
      cases kx <;> cases ky <;> simp only [owns, before] at ox oy hbf <;>
        simp only [mWritten, hss, false_imp_iff, true_iff, e, or_false] <;>
        first
          | (rintro ⟨-, h1, h2⟩; omega)
          | (cases bb
             · simp; omega
             · simp)
    by_cases hz : bb = false ∧ P.Ns ≤ x ∧ P.Ns ≤ y
    · rw [if_pos hz, if_neg (by rw [hw]; exact not_not.mpr hz)]
    · rw [if_neg hz, if_pos (hw.mpr hz)]
      rfl

theorem selfMob_symm (mu a : ℝ) (c1 c2 : Comp) : selfMob mu a c1 c2 = selfMob mu a c2 c1 := by
  cases c1 <;> cases c2 <;> simp only [selfMob, eq_comm]

theorem sep_swap (r : Vec3) (a b : ℝ) : sep (-r) b a = -sep r a b := by
  unfold sep
  rw [len_neg, add_comm b a]
  split_ifs
  · funext i; simp
  · rfl

theorem systemMob_symm {Ns : ℕ} {bb : Bool} {X : ℕ → Vec3} {A : ℕ → ℝ} (mu : ℝ) {x y : ℕ}
    (ha : 0 < A x) (hb : 0 < A y) (hsep : x ≠ y → 1 / 10 ^ 8 < len (X x - X y)) (c1 c2 : Comp) :
    systemMob Ns bb X A mu x c1 y c2 = systemMob Ns bb X A mu y c2 x c1 := by
  unfold systemMob
  by_cases e : x = y
  · subst e; rw [if_pos rfl, if_pos rfl, selfMob_symm]
  · rw [if_neg e, if_neg (Ne.symm e)]
    refine if_congr (by tauto) rfl ?_
    have h := (sep_ne ha hb (hsep e)).1
    have e1 : (fun i => X x i - X y i) = X x - X y := rfl
    have e2 : (fun i => X y i - X x i) = -(X x - X y) := by funext i; simp
    rw [e1, e2, sep_swap, pairMob_recip h]

/-- Every entry of the far-field matrix in bead coordinates. -/
theorem minf_entry (P : PosData) (mu : ℝ) (bb : Bool)
    (hsz : ∀ x < P.Ns + 2 * P.Nd, 0 < P.beadSize x)
    (hsep : ∀ x < P.Ns + 2 * P.Nd, ∀ y < P.Ns + 2 * P.Nd, x ≠ y →
      1 / 10 ^ 8 < len (P.beadPos x - P.beadPos y))
    {x y : ℕ} {c1 c2 : Comp} (hx : HasRow P.Ns P.Nd x c1) (hy : HasRow P.Ns P.Nd y c2) (n m : ℕ) :
    (generate_Minfinity_loop (NDMat.zeros n m) P (1 / (8 * Real.pi * mu)) mu bb).get
      (row P.Ns x c1) (row P.Ns y c2)
    = systemMob P.Ns bb P.beadPos P.beadSize mu x c1 y c2 := by
  have hxn := owns_lt (owns_kind hx)
  have hyn := owns_lt (owns_kind hy)
  unfold generate_Minfinity_loop
  rcases before_total (owns_kind hx) (owns_kind hy) (idx_lt P.Ns P.Nd x c1) (idx_lt P.Ns P.Nd y c2)
    with ⟨h, hle⟩ | ⟨h, hle⟩
  · rw [← row_eq hx, ← row_eq hy] at hle
    rw [symmetrise_upper _ hle, minf_upper P mu bb hsz hsep hx hy n m h]
  · rw [← row_eq hx, ← row_eq hy] at hle
    rw [symmetrise_symm, symmetrise_upper _ hle, minf_upper P mu bb hsz hsep hy hx n m h]
    exact systemMob_symm mu (hsz y hyn) (hsz x hxn) (fun e => hsep y hyn x hxn e) c2 c1

end SD
