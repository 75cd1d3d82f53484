import Verif.Lemmas.NearForm
import Verif.Props.Dissipation

/-!
# The near field dissipates (C60)

The near-field resistances are read from a table and added to the far-field resistance without any check. A
condition on the rows of the table makes sure that they never feed energy into the suspension, so that every
system with the near field switched on is solved as well.
-/

set_option autoImplicit false

namespace SD

open Spec Near

/-- One row of the table: the scalars for the tabulated distance `n` and size ratio `l`. -/
def Spec.tableRow (T : ScalarTable) (g n l : ℕ) : Scalars where
  XA := T.raw 0 g n l
  YA := T.raw 1 g n l
  YB := T.raw 2 g n l
  XC := T.raw 3 g n l
  YC := T.raw 4 g n l
  XG := T.raw 5 g n l
  YG := T.raw 6 g n l
  YH := T.raw 7 g n l
  XM := T.raw 8 g n l
  YM := T.raw 9 g n l
  ZM := T.raw 10 g n l

/-- The condition on a table: the distances ascend, and at every one of them the scalars of two spheres of radii
`a` and `b`, read from the columns `l` and `m` for the ratios `b/a` and `a/b`, do not feed energy into any of the
four kinds of motion. -/
structure Spec.TableDissipates (T : ScalarTable) : Prop where
  ascending : T.sDash.Pairwise (· < ·)
  nonempty : T.sDash ≠ []
  rows : ∀ n < T.sDash.length, ∀ a b : ℝ, 0 < a → 0 < b → ∀ l (_ : l < T.lam.length) m (_ : m < T.lam.length),
    |T.lam[l] - b / a| ≤ 1 / 10 ^ 8 + 1 / 10 ^ 5 * |b / a| →
    |T.lam[m] - a / b| ≤ 1 / 10 ^ 8 + 1 / 10 ^ 5 * |a / b| →
    Dissipative (tableRow T 0 n l) (tableRow T 0 n m) (tableRow T 1 n l) (tableRow T 1 n m) a b

/-- **C60** (four kinds). The power of a pair is non-negative for all its motions exactly if it is for the four
kinds of motion separately: along the line of centres, twisting about it, across it, and straining in the plane
across it. -/
theorem C60_modes {d : Fin 3 → ℝ} (hd : dotp d d = 1) (z1 z2 z12 z21 : Scalars) (a b : ℝ) :
    (∀ w1 w2, 0 ≤ pairPower z1 z2 z12 z21 a b d w1 w2) ↔ Dissipative z1 z2 z12 z21 a b :=
  ⟨dissipative_of_power hd, fun h => pairPower_nonneg d hd h⟩

/-! ## Interpolation -/

/-- Mixture of scalars. -/
def mixScal (t : ℝ) (z w : Scalars) : Scalars where
  XA := (1 - t) * z.XA + t * w.XA
  YA := (1 - t) * z.YA + t * w.YA
  YB := (1 - t) * z.YB + t * w.YB
  XC := (1 - t) * z.XC + t * w.XC
  YC := (1 - t) * z.YC + t * w.YC
  XG := (1 - t) * z.XG + t * w.XG
  YG := (1 - t) * z.YG + t * w.YG
  YH := (1 - t) * z.YH + t * w.YH
  XM := (1 - t) * z.XM + t * w.XM
  YM := (1 - t) * z.YM + t * w.YM
  ZM := (1 - t) * z.ZM + t * w.ZM

theorem dissipative_mix {z1 z2 z12 z21 y1 y2 y12 y21 : Scalars} {a b t : ℝ} (h0 : 0 ≤ t) (h1 : t ≤ 1)
    (hz : Dissipative z1 z2 z12 z21 a b) (hy : Dissipative y1 y2 y12 y21 a b) :
    Dissipative (mixScal t z1 y1) (mixScal t z2 y2) (mixScal t z12 y12) (mixScal t z21 y21) a b := by
  have key : ∀ {p q r : ℝ}, 0 ≤ p → 0 ≤ q → r = (1 - t) * p + t * q → 0 ≤ r := fun hp hq e => by
    rw [e]; exact add_nonneg (mul_nonneg (by linarith) hp) (mul_nonneg h0 hq)
  refine ⟨fun u1 u2 e1 e2 => key (hz.axial u1 u2 e1 e2) (hy.axial u1 u2 e1 e2) ?_,
    fun o1 o2 => key (hz.twist o1 o2) (hy.twist o1 o2) ?_,
    fun p1 p2 q1 q2 s1 s2 => key (hz.shear p1 p2 q1 q2 s1 s2) (hy.shear p1 p2 q1 q2 s1 s2) ?_,
    fun k1 k2 => key (hz.plane k1 k2) (hy.plane k1 k2) ?_⟩
  · simp only [axialPower, mixScal]; ring
  · simp only [twistPower, mixScal]; ring
  · simp only [shearPower, mixScal]; ring
  · simp only [planePower, mixScal]; ring

/-- Interpolation is a mixture of two tabulated values, with weights that depend on the distance only. -/
theorem interp_mix {xs : List ℝ} (hx : xs.Pairwise (· < ·)) (hne : xs ≠ []) (x : ℝ) :
    ∃ i < xs.length, ∃ j < xs.length, ∃ t : ℝ, 0 ≤ t ∧ t ≤ 1 ∧
      ∀ f : ℕ → ℝ, npInterp x xs f = (1 - t) * f i + t * f j := by
  have hlen : 0 < xs.length := List.length_pos_iff.mpr hne
  by_cases h1 : x ≤ xs.getD 0 0
  · exact ⟨0, hlen, 0, hlen, 0, le_rfl, zero_le_one, fun f => by rw [interp_left hx hne f h1]; ring⟩
  by_cases h2 : xs.getD (xs.length - 1) 0 ≤ x
  · exact ⟨xs.length - 1, by omega, 0, hlen, 0, le_rfl, zero_le_one, fun f => by
      rw [interp_right hx hne f h2]; ring⟩
  push Not at h1 h2
  classical
  set k := Nat.findGreatest (fun k => xs.getD k 0 ≤ x) (xs.length - 1) with hk
  have hkl : k ≤ xs.length - 1 := Nat.findGreatest_le _
  have hk1 : xs.getD k 0 ≤ x := Nat.findGreatest_spec (P := fun k => xs.getD k 0 ≤ x) (Nat.zero_le _) h1.le
  have hk2 : k + 1 < xs.length := by
    by_contra hc
    have : k = xs.length - 1 := by omega
    rw [this] at hk1
    linarith
  have hk3 : x < xs.getD (k + 1) 0 := by
    have := Nat.findGreatest_is_greatest (P := fun k => xs.getD k 0 ≤ x) (n := xs.length - 1) (k := k + 1)
      (by omega) (by omega)
    exact not_le.mp this
  refine ⟨k, by omega, k + 1, hk2, (x - xs.getD k 0) / (xs.getD (k + 1) 0 - xs.getD k 0), ?_, ?_, fun f => ?_⟩
  · exact div_nonneg (by linarith) (by linarith)
  · rw [div_le_one (by linarith)]; linarith
  · rw [interp_inside hx f hk2 hk1 hk3.le]; ring

/-- What the table gives for any pair. -/
theorem table_dissipative {T : ScalarTable} (hT : TableDissipates T) {a b : ℝ} (ha : 0 < a) (hb : 0 < b)
    (h1 : lamIndex T (b / a) ≠ none) (h2 : lamIndex T (a / b) ≠ none) (s : ℝ) :
    Dissipative (tableScal T 0 (b / a) s) (tableScal T 0 (a / b) s) (tableScal T 1 (b / a) s)
      (tableScal T 1 (a / b) s) a b := by
  obtain ⟨l, hl⟩ := Option.ne_none_iff_exists'.mp h1
  obtain ⟨m, hm⟩ := Option.ne_none_iff_exists'.mp h2
  obtain ⟨hl1, hl2, -⟩ := ((C22_ratio T (b / a)).1 l).mp hl
  obtain ⟨hm1, hm2, -⟩ := ((C22_ratio T (a / b)).1 m).mp hm
  obtain ⟨i, hi, j, hj, t, t0, t1, ht⟩ := interp_mix hT.ascending hT.nonempty s
  have e : ∀ g l, scalarsAt T g s l = mixScal t (tableRow T g i l) (tableRow T g j l) := by
    intro g l
    simp only [scalarsAt, XYZ, ht, mixScal, tableRow]
  unfold tableScal
  rw [hl, hm]
  simp only [Option.getD_some, e]
  exact dissipative_mix t0 t1 (hT.rows i hi a b ha hb l hl1 m hm1 hl2 hm2) (hT.rows j hj a b ha hb l hl1 m hm1 hl2 hm2)

/-! ## The near-field matrix -/

/-- The form of the near-field matrix in terms of bead motions. -/
theorem near_form {T : ScalarTable} {P : PosData} {k : ℝ} (hP : Sensible P) (hk : 0 < k)
    (hT : Tabulated T.lam P k) (mu : ℝ) (bb : Bool) :
    ∃ R, generate_R2Bexact T P k mu bb = some R ∧ R.rows = side P ∧ R.cols = side P ∧
      (∀ i j, R.get i j = R.get j i) ∧
      ∀ w : ℕ → ℝ, ∑ i ∈ Finset.range (side P), toDumbVel P.Ns P.Nd w i
          * mulVec (side P) R.get (toDumbVel P.Ns P.Nd w) i
        = mu * ∑ x ∈ Finset.range (beads P), ∑ y ∈ Finset.range (beads P), share P.Ns bb (radius P) (tableScal T)
          (openLink k (centre P) (radius P)) (moves P.Ns P.Nd w) x y := by
  obtain ⟨M, h1, h2, h3, h4, h5⟩ := near_entry hP hk hT bb
  obtain ⟨R, e1, e2, e3, e4, e5⟩ := R2B_mulVec (mu := mu) h1 ⟨h2, h3⟩
  refine ⟨R, e1, e2, e3, e4 h4, fun w => ?_⟩
  rw [← form_shares, Finset.sum_congr rfl fun i hi => congrArg _ (e5 w i (Finset.mem_range.mp hi))]
  have := C11_power P.Ns P.Nd (fun j => mu * mulVec (side P) M.get w j) w
  rw [Finset.sum_congr rfl fun i _ => mul_comm _ _]
  refine this.trans ?_
  have := form_beads h5 w
  unfold beads side at *
  rw [← this, Finset.mul_sum]
  exact Finset.sum_congr rfl fun i _ => by ring

theorem near_mutual {P : PosData} {k : ℝ} (hP : Sensible P) (hk : 0 < k) :
    Mutual (beads P) (openLink k (centre P) (radius P)) := by
  have := Links.mutual (near_links hP hk)
  rwa [beadSize_eq, beadPos_eq] at this

/-- **C60** (near field). If the scalars read for every close pair do not feed energy into that pair, then the
near-field matrix of the whole suspension is positive semidefinite, whichever way the bead-bead switch is set. -/
theorem C60_near {T : ScalarTable} {P : PosData} {k : ℝ} (hP : Sensible P) (hk : 0 < k)
    (hT : Tabulated T.lam P k) {mu : ℝ} (hmu : 0 ≤ mu) (bb : Bool)
    (hD : ∀ x < beads P, ∀ y < beads P, x < y → ∀ d s, openLink k (centre P) (radius P) x y = some (d, s) →
      Dissipative (tableScal T 0 (radius P y / radius P x) s) (tableScal T 0 (radius P x / radius P y) s)
        (tableScal T 1 (radius P y / radius P x) s) (tableScal T 1 (radius P x / radius P y) s)
        (radius P x) (radius P y)) :
    ∃ R, generate_R2Bexact T P k mu bb = some R ∧ R.rows = side P ∧ R.cols = side P ∧
      (∀ i j, R.get i j = R.get j i) ∧
      ∀ v : ℕ → ℝ, 0 ≤ ∑ i ∈ Finset.range (side P), v i * mulVec (side P) R.get v i := by
  obtain ⟨R, e1, e2, e3, e4, e5⟩ := near_form hP hk hT mu bb
  refine ⟨R, e1, e2, e3, e4, fun v => ?_⟩
  obtain ⟨w, hw⟩ : ∃ w, ∀ i < side P, toDumbVel P.Ns P.Nd w i = v i := vel_surj P.Ns P.Nd v
  have : ∑ i ∈ Finset.range (side P), v i * mulVec (side P) R.get v i
      = ∑ i ∈ Finset.range (side P), toDumbVel P.Ns P.Nd w i * mulVec (side P) R.get (toDumbVel P.Ns P.Nd w) i :=
    Finset.sum_congr rfl fun i hi => by
      rw [mulVec_congr hw, hw i (Finset.mem_range.mp hi)]
  rw [this, e5]
  exact mul_nonneg hmu (form_nonneg (near_mutual hP hk) hD _)

/-- **C60** (table). A table whose rows satisfy the condition gives a positive semidefinite near-field matrix for
every configuration, at every distance between and beyond the tabulated ones. -/
theorem C60_table {T : ScalarTable} (hD : TableDissipates T) {P : PosData} {k : ℝ} (hP : Sensible P) (hk : 0 < k)
    (hT : Tabulated T.lam P k) {mu : ℝ} (hmu : 0 ≤ mu) (bb : Bool) :
    ∃ R, generate_R2Bexact T P k mu bb = some R ∧ R.rows = side P ∧ R.cols = side P ∧
      (∀ i j, R.get i j = R.get j i) ∧
      ∀ v : ℕ → ℝ, 0 ≤ ∑ i ∈ Finset.range (side P), v i * mulVec (side P) R.get v i := by
  refine C60_near hP hk hT hmu bb fun x hx y hy hxy d s hl => ?_
  have f := near_found (P := P) (k := k) hT
  rw [beadSize_eq, beadPos_eq] at f
  have hl' : openLink k (centre P) (radius P) y x ≠ none := by
    rcases near_mutual hP hk x hx y hy hxy.ne with ⟨h, -⟩ | ⟨d', s', -, -, h⟩
    · rw [h] at hl; exact absurd hl (by simp)
    · rw [h]; simp
  exact table_dissipative hD (hP.radius_pos x hx) (hP.radius_pos y hy) (f x hx y hy (.inr (by rw [hl]; simp)))
    (f y hy x hx (.inr hl')) s

/-- **C60** (grand). With such a table and beads that do not overlap the whole resistance matrix, near field
included, is symmetric and positive definite, and every complete input of every allowed form is solved. -/
theorem C60_solvable {T : ScalarTable} (hD : TableDissipates T) {P : PosData} {k : ℝ} (hP : Sensible P)
    (hS : Separate P) (hk : 0 < k) (hT : Tabulated T.lam P k) {mu : ℝ} (hmu : 0 < mu) {bb : Bool}
    (hbb : bb = true ∨ P.Nd = 0) (last : NDMat) :
    ∃ R C, generate_grand_resistance_matrix T P last true k false false mu bb = some (R, C) ∧
      Symm R.get (side P) ∧ PosDef R.get (side P) ∧
      ∀ {form : InputForm} {inp : Inputs}, formAllowed form P.Ns → Sized P.Ns P.Nd inp →
        Complete form P.Ns P.Nd inp → ∃ out, solveForm form false P.Ns P.Nd R inp = some out := by
  obtain ⟨C, hC, hr, hc, hp⟩ := C59_inverse hP hS hmu hbb
  obtain ⟨N, hN, n1, n2, n3, n4⟩ := C60_table hD hP hk hT hmu.le bb
  have hCs := inv_symm hC (Minfinity_symm P mu bb)
  have hadd : ∀ (w : ℕ → ℝ) (i : ℕ), mulVec (side P) (N.add C).get w i
      = mulVec (side P) N.get w i + mulVec (side P) C.get w i := by
    intro w i
    unfold mulVec
    rw [← Finset.sum_add_distrib]
    exact Finset.sum_congr rfl fun j _ => by simp only [NDMat.add]; ring
  have hsy : Symm (N.add C).get (side P) := fun i _ j _ => by
    show N.get i j + C.get i j = N.get j i + C.get j i
    rw [n3 i j, hCs i j]
  have hpd : PosDef (N.add C).get (side P) := by
    rw [posDef_iff]
    intro w hw
    refine lt_of_lt_of_le (posDef_iff.mp hp w hw) ?_
    simp only [hadd, mul_add, Finset.sum_add_distrib]
    linarith [n4 w]
  refine ⟨N.add C, C, ?_, hsy, hpd, fun {form inp} hf hs hcm => C09_spd_succeeds hf hs n1 n2 hsy hpd hcm⟩
  unfold generate_grand_resistance_matrix
  simp only [if_true, Option.bind_eq_bind]
  rw [hC, Option.bind_some, hN, Option.bind_some]

/-- **C60** (the condition is needed). For two spheres within reach of each other the near-field matrix is positive
semidefinite only if their scalars meet the condition. -/
theorem C60_pair {T : ScalarTable} {P : PosData} (h2 : P.Ns = 2) (h0 : P.Nd = 0) {k : ℝ} (hP : Sensible P) (hk : 0 < k)
    (hT : Tabulated T.lam P k) {mu : ℝ} (hmu : 0 < mu) (bb : Bool) {d : Fin 3 → ℝ} {s : ℝ}
    (hl : openLink k (centre P) (radius P) 0 1 = some (d, s)) :
    ∃ R, generate_R2Bexact T P k mu bb = some R ∧
      ((∀ v : ℕ → ℝ, 0 ≤ ∑ i ∈ Finset.range (side P), v i * mulVec (side P) R.get v i) ↔
      Dissipative (tableScal T 0 (radius P 1 / radius P 0) s) (tableScal T 0 (radius P 0 / radius P 1) s)
        (tableScal T 1 (radius P 1 / radius P 0) s) (tableScal T 1 (radius P 0 / radius P 1) s)
        (radius P 0) (radius P 1)) := by
  obtain ⟨R, e1, e2, e3, e4, e5⟩ := near_form hP hk hT mu bb
  have hb : beads P = 2 := by unfold beads; omega
  refine ⟨R, e1, fun hpos => ?_, fun h => ?_⟩
  · rcases near_mutual hP hk 0 (by omega) 1 (by omega) (by omega) with ⟨h, -⟩ | ⟨d', s', hd, h, h'⟩
    · rw [h] at hl; exact absurd hl (by simp)
    · rw [h] at hl
      obtain ⟨rfl, rfl⟩ : d' = d ∧ s' = s := by simpa using hl
      refine (C60_modes hd _ _ _ _ _ _).mp fun w1 w2 => ?_
      -- the grand vector with these two motions
      obtain ⟨rsurj, rlt, rinj⟩ := C48_rows P
      have : Nonempty Comp := ⟨.f 0⟩
      choose! bd cp hrow hbc using rsurj
      set v : ℕ → ℝ := fun i => (if bd i = 0 then w1 else w2) (cp i) with hv
      have hmv : ∀ x c, HasRow P.Ns P.Nd x c → v (row P.Ns x c) = (if x = 0 then w1 else w2) c := by
        intro x c hx
        have hi := rlt x c hx
        obtain ⟨i1, i2⟩ := rinj _ _ _ _ (hrow _ hi) hx (hbc _ hi)
        rw [hv]
        dsimp only
        rw [i1, i2]
      have hall : ∀ x < 2, ∀ c, HasRow P.Ns P.Nd x c := by
        intro x hx c
        cases c <;> simp only [HasRow] <;> omega
      have m0 : moves P.Ns P.Nd v 0 = w1 := by
        funext c
        unfold moves
        rw [if_pos (hall 0 (by omega) c), hmv 0 c (hall 0 (by omega) c), if_pos rfl]
      have m1 : moves P.Ns P.Nd v 1 = w2 := by
        funext c
        unfold moves
        rw [if_pos (hall 1 (by omega) c), hmv 1 c (hall 1 (by omega) c), if_neg (by omega)]
      have := hpos (toDumbVel P.Ns P.Nd v)
      rw [e5, hb] at this
      have hs := shares_pair (Ns := P.Ns) (bb := bb) (radius := radius P) (scal := tableScal T)
        (moves P.Ns P.Nd v) (show 0 < 1 by omega) h h'
      rw [if_neg (by omega), m0, m1] at hs
      rw [← hs]
      have h00 : ∀ x, share P.Ns bb (radius P) (tableScal T) (openLink k (centre P) (radius P))
          (moves P.Ns P.Nd v) x x = 0 := fun x => by unfold share; rw [if_pos rfl]
      simp only [Finset.sum_range_succ, Finset.sum_range_zero, h00, zero_add, add_zero] at this
      exact nonneg_of_mul_nonneg_right this hmu
  · obtain ⟨R', f1, -, -, -, f5⟩ := C60_near hP hk hT hmu.le bb (fun x hx y hy hxy d' s' hl' => by
      obtain ⟨rfl, rfl⟩ : x = 0 ∧ y = 1 := by omega
      rw [hl] at hl'
      obtain ⟨rfl, rfl⟩ : d = d' ∧ s = s' := by simpa using hl'
      exact h)
    rw [e1] at f1
    obtain rfl : R = R' := by simpa using f1
    exact f5

/-! ## Examples -/

/-- A table with resistances to all motions, weaker couplings and a push on the neighbour. -/
noncomputable def dampT : ScalarTable where
  sDash := [2, 3, 5]
  lam := [1 / 4, 1 / 2, 1, 2, 4]
  raw := fun k g n _ =>
    if g = 0 then (if k = 2 ∨ k = 5 ∨ k = 6 ∨ k = 7 then 1 else 20 + n) else if k = 0 ∨ k = 1 then -1 else 0

theorem dampT_ratio {l : ℕ} (hl : l < dampT.lam.length) {x : ℝ} (hx : 0 < x)
    (h : |dampT.lam[l] - x| ≤ 1 / 10 ^ 8 + 1 / 10 ^ 5 * |x|) : x ≤ 5 ∧ 1 / 5 ≤ x := by
  rw [abs_of_pos hx, abs_le] at h
  have hl' : l < 5 := hl
  interval_cases l <;> norm_num [dampT] at h <;> constructor <;> linarith [h.1, h.2]

theorem dampT_dissipates : TableDissipates dampT := by
  refine ⟨by simp [dampT]; norm_num, by simp [dampT], ?_⟩
  intro n _ a b ha hb l hl m hm h1 h2
  obtain ⟨r1, r2⟩ := dampT_ratio hl (div_pos hb ha) h1
  rw [div_le_iff₀ ha] at r1
  rw [le_div_iff₀ ha] at r2
  have hn : (0 : ℝ) ≤ n := Nat.cast_nonneg n
  have hpi := Real.pi_pos
  have z0 : ∀ l, tableRow dampT 0 n l = ⟨20 + n, 20 + n, 1, 20 + n, 20 + n, 1, 1, 1, 20 + n, 20 + n, 20 + n⟩ := by
    intro l; simp [tableRow, dampT]
  have z1 : ∀ l, tableRow dampT 1 n l = ⟨-1, -1, 0, 0, 0, 0, 0, 0, 0, 0, 0⟩ := by
    intro l; simp [tableRow, dampT]
  rw [z0, z0, z1, z1]
  have a3 : 0 < a ^ 3 := by positivity
  have b3 : 0 < b ^ 3 := by positivity
  have push : ∀ u v : ℝ, 2 * (a * u * v) ≤ a * u ^ 2 + 5 * (b * v ^ 2) := by
    intro u v
    nlinarith [mul_nonneg ha.le (sq_nonneg (u - v)), mul_nonneg (show 0 ≤ 5 * b - a by linarith) (sq_nonneg v)]
  have cpl : ∀ c : ℝ, 0 < c → ∀ u e : ℝ, -(c * u ^ 2 + c ^ 3 * e ^ 2) ≤ 2 * (c ^ 2 * e * u) ∧
      2 * (c ^ 2 * e * u) ≤ c * u ^ 2 + c ^ 3 * e ^ 2 := by
    intro c hc u e
    constructor
    · nlinarith [mul_nonneg hc.le (sq_nonneg (u + c * e))]
    · nlinarith [mul_nonneg hc.le (sq_nonneg (u - c * e))]
  have spin : ∀ c : ℝ, 0 < c → ∀ q e : ℝ, 2 * (c ^ 3 * e * q) ≤ c ^ 3 * q ^ 2 + c ^ 3 * e ^ 2 := by
    intro c hc q e
    nlinarith [mul_nonneg (pow_pos hc 3).le (sq_nonneg (q - e))]
  have sq : ∀ c : ℝ, 0 < c → ∀ u : ℝ, 0 ≤ c * u ^ 2 ∧ 0 ≤ n * (c * u ^ 2) := fun c hc u =>
    ⟨by positivity, by positivity⟩
  refine ⟨fun u1 u2 e1 e2 => ?_, fun o1 o2 => ?_, fun p1 p2 q1 q2 s1 s2 => ?_, fun k1 k2 => ?_⟩
  · refine mul_nonneg hpi.le ?_
    dsimp only
    linarith [push u1 u2, (cpl a ha u1 e1).1, (cpl b hb u2 e2).2, (sq a ha u1).1, (sq a ha u1).2, (sq b hb u2).1,
      (sq b hb u2).2, (sq _ a3 e1).1, (sq _ a3 e1).2, (sq _ b3 e2).1, (sq _ b3 e2).2]
  · refine mul_nonneg (by positivity) ?_
    dsimp only
    linarith [(sq _ a3 o1).1, (sq _ a3 o1).2, (sq _ b3 o2).1, (sq _ b3 o2).2]
  · refine mul_nonneg hpi.le ?_
    dsimp only
    linarith [push p1 p2, (cpl a ha p1 q1).1, (cpl b hb p2 q2).2, (cpl a ha p1 s1).1, (cpl b hb p2 s2).2,
      spin a ha q1 s1, spin b hb q2 s2, (sq a ha p1).1, (sq a ha p1).2, (sq b hb p2).1,
      (sq b hb p2).2, (sq _ a3 q1).1, (sq _ a3 q1).2, (sq _ b3 q2).1, (sq _ b3 q2).2, (sq _ a3 s1).1, (sq _ a3 s1).2,
      (sq _ b3 s2).1, (sq _ b3 s2).2]
  · refine mul_nonneg (by positivity) ?_
    dsimp only
    linarith [(sq _ a3 k1).1, (sq _ a3 k1).2, (sq _ b3 k2).1, (sq _ b3 k2).2]

/-- Two spheres of different sizes next to a dumbbell. -/
example : ∃ R, generate_R2Bexact dampT demoP 5 2 false = some R ∧
    ∀ v : ℕ → ℝ, 0 ≤ ∑ i ∈ Finset.range 28, v i * mulVec 28 R.get v i := by
  obtain ⟨R, h1, -, -, -, h2⟩ := C60_table dampT_dissipates demoP_sensible (by norm_num) (demoT_tabulated 5)
    (mu := 2) (by norm_num) false
  exact ⟨R, h1, h2⟩

/-- A sphere between four beads, with the near field switched on. -/
example : ∃ R C, generate_grand_resistance_matrix dampT starP (NDMat.zeros 0 0) true 5 false false 3 true
      = some (R, C) ∧ PosDef R.get 23 := by
  have hT : Tabulated dampT.lam starP 5 := by
    intro x hx y hy _
    rw [starP_radius hx, starP_radius hy]
    exact ⟨1, by norm_num [dampT], by norm_num⟩
  obtain ⟨R, C, h1, -, h2, -⟩ := C60_solvable dampT_dissipates (k := 5) starP_sensible starP_separate (by norm_num)
    hT (mu := 3) (by norm_num) (.inl rfl) (NDMat.zeros 0 0)
  exact ⟨R, C, h1, h2⟩

theorem lensP_sensible : Sensible lensP := by
  refine ⟨fun x hx => ?_, fun x hx y hy hxy => ?_⟩
  · have : x < 2 := hx
    interval_cases x <;> simp [radius, lensP]
  · have hx' : x < 2 := hx
    have hy' : y < 2 := hy
    unfold len
    apply Real.lt_sqrt_of_sq_lt
    rw [Fin.sum_univ_three]
    interval_cases x <;> interval_cases y <;> first
      | exact absurd rfl hxy
      | (simp [centre, lensP]; norm_num)

theorem lensP_link : ∃ d s, openLink 5 (centre lensP) (radius lensP) 0 1 = some (d, s) := by
  have : len (fun i => centre lensP 1 i - centre lensP 0 i) ≤ 2 := by
    unfold len
    rw [Real.sqrt_le_left (by norm_num), Fin.sum_univ_three]
    simp [centre, lensP]
    norm_num
  unfold openLink
  dsimp only
  rw [if_pos]
  · exact ⟨_, _, rfl⟩
  · rw [div_lt_iff₀ (by norm_num [radius, lensP])]
    refine lt_of_le_of_lt this ?_
    norm_num [radius, lensP]

theorem lensP_tabulated : Tabulated flatT.lam lensP 5 := by
  intro x hx y hy _
  have hx' : x < 2 := hx
  have hy' : y < 2 := hy
  refine ⟨radius lensP y / radius lensP x, ?_, by simp; positivity⟩
  interval_cases x <;> interval_cases y <;> norm_num [radius, lensP, flatT, demoT]

theorem flatT_scal (g : ℕ) (lam s : ℝ) : tableScal flatT g lam s = ⟨1, 1, 1, 1, 1, 1, 1, 1, 1, 1, 1⟩ := by
  have : ∀ k g s l, XYZ flatT k g s l = 1 := by
    intro k g s l
    obtain ⟨i, -, j, -, t, -, -, h⟩ := interp_mix (xs := flatT.sDash) (by simp [flatT, demoT]; norm_num) (by simp [flatT, demoT]) s
    unfold XYZ
    rw [h]
    simp [flatT]
  simp only [tableScal, scalarsAt, this]

/-- **C60** (energy gain). The code does not check the condition: a table of ones gives two spheres a near-field
matrix with a motion that gains energy. -/
theorem C60_gain {mu : ℝ} (hmu : 0 < mu) (bb : Bool) : ∃ R, generate_R2Bexact flatT lensP 5 mu bb = some R ∧
    ∃ v : ℕ → ℝ, ∑ i ∈ Finset.range (side lensP), v i * mulVec (side lensP) R.get v i < 0 := by
  obtain ⟨d, s, hl⟩ := lensP_link
  obtain ⟨R, h1, h2⟩ := C60_pair (P := lensP) rfl rfl lensP_sensible (by norm_num) lensP_tabulated hmu bb hl
  refine ⟨R, h1, ?_⟩
  by_contra hc
  push Not at hc
  have := (h2.mp hc).shear 0 0 2 0 1 0
  rw [flatT_scal, flatT_scal, flatT_scal, flatT_scal] at this
  have hr : radius lensP 0 = 1 := by simp [radius, lensP]
  rw [hr] at this
  unfold shearPower at this
  norm_num at this
  nlinarith [Real.pi_pos]

end SD
