import Verif.Lemmas.Scalars
import Verif.Props.GrandResistance
import Verif.Props.Dilute

/-!
# Tabulated scalars (C44)

The table used by the simulation is made by a script that takes the two-sphere resistance scalars, reads the
far-field contribution off a matrix, and subtracts it.
-/

set_option autoImplicit false

namespace SD

open Spec

section
variable {a lam s k : ℝ}

theorem pair_radius0 : radius (pairPosdata a lam s) 0 = a := by simp [radius, pairPosdata]
theorem pair_radius1 : radius (pairPosdata a lam s) 1 = a * lam := by simp [radius, pairPosdata]
theorem pair_centre0 : centre (pairPosdata a lam s) 0 = ![0, 0, 0] := by
  funext i; simp [centre, pairPosdata]
theorem pair_centre1 : centre (pairPosdata a lam s) 1 = ![s * (a + a * lam) * 0.5, 0, 0] := by
  funext i; simp [centre, pairPosdata]

theorem pair_len (h : 0 ≤ s * (a + a * lam) * 0.5) :
    len (fun i => centre (pairPosdata a lam s) 1 i - centre (pairPosdata a lam s) 0 i)
      = s * (a + a * lam) * 0.5 := by
  refine len_axis h ?_
  rw [pair_centre0, pair_centre1]
  simp [Fin.sum_univ_three]

theorem pair_len' (h : 0 ≤ s * (a + a * lam) * 0.5) :
    len (fun i => centre (pairPosdata a lam s) 0 i - centre (pairPosdata a lam s) 1 i)
      = s * (a + a * lam) * 0.5 := by
  refine len_axis h ?_
  rw [pair_centre0, pair_centre1]
  simp [Fin.sum_univ_three]

theorem pair_sensible (ha : 0 < a) (hl : 0 < lam) (hs : 1 / 10 ^ 8 < s * (a + a * lam) * 0.5) :
    Sensible (pairPosdata a lam s) := by
  have h0 : 0 ≤ s * (a + a * lam) * 0.5 := le_trans (by positivity) hs.le
  constructor
  · intro x hx
    have : x < 2 := hx
    interval_cases x
    · rw [pair_radius0]; exact ha
    · rw [pair_radius1]; positivity
  · intro x hx y hy hxy
    have hx' : x < 2 := hx
    have hy' : y < 2 := hy
    interval_cases x <;> interval_cases y
    · exact absurd rfl hxy
    · rw [pair_len' h0]; exact hs
    · rw [pair_len h0]; exact hs
    · exact absurd rfl hxy

theorem pair_link01 (ha : 0 < a) (hl : 0 < lam) (hs : 0 < s) (hk : s < 2 * k) :
    openLink k (centre (pairPosdata a lam s)) (radius (pairPosdata a lam s)) 0 1 = some (ex, s) := by
  have hp : 0 < a + a * lam := by positivity
  have h0 : 0 ≤ s * (a + a * lam) * 0.5 := by positivity
  have e : s * (a + a * lam) * 0.5 / ((a + a * lam) / 2) = s := by field_simp; norm_num
  unfold openLink
  dsimp only
  rw [pair_len h0, pair_radius0, pair_radius1, e, if_pos hk]
  congr 2
  funext i
  rw [pair_centre0, pair_centre1]
  fin_cases i <;> simp [ex]
  exact ⟨⟨hs.ne', hp.ne'⟩, by norm_num⟩

theorem pair_link10 (ha : 0 < a) (hl : 0 < lam) (hs : 0 < s) (hk : s < 2 * k) :
    openLink k (centre (pairPosdata a lam s)) (radius (pairPosdata a lam s)) 1 0
      = some (fun i => -ex i, s) := by
  have hp : 0 < a + a * lam := by positivity
  have h0 : 0 ≤ s * (a + a * lam) * 0.5 := by positivity
  have e : s * (a + a * lam) * 0.5 / ((a * lam + a) / 2) = s := by
    rw [add_comm (a * lam) a]; field_simp; norm_num
  unfold openLink
  dsimp only
  rw [pair_len' h0, pair_radius0, pair_radius1, e, if_pos hk]
  congr 2
  funext i
  rw [pair_centre0, pair_centre1]
  fin_cases i <;> simp [ex]
  rw [neg_div, div_self (by positivity)]

/-- The size ratios of the pair, and the ratio 1 that the code also looks up, are tabulated. -/
structure PairTabulated (T : ScalarTable) (lam : ℝ) (l : ℕ) : Prop where
  there : lamIndex T lam = some l
  back : lamIndex T (1 / lam) ≠ none
  one : lamIndex T 1 ≠ none

theorem pair_tabulated {T : ScalarTable} {l : ℕ} (ha : 0 < a) (hl : 0 < lam) (h : PairTabulated T lam l) :
    Tabulated T.lam (pairPosdata a lam s) k := by
  have key : ∀ q, lamIndex T q ≠ none → ∃ t ∈ T.lam, |t - q| ≤ 1 / 10 ^ 8 + 1 / 10 ^ 5 * |q| := by
    intro q hq
    by_contra hc
    push Not at hc
    exact hq ((C22_ratio T q).2.mpr fun t ht => not_le.mpr (hc t ht))
  intro x hx y hy _
  have hx' : x < 2 := hx
  have hy' : y < 2 := hy
  interval_cases x <;> interval_cases y
  · rw [pair_radius0, div_self ha.ne']; exact key 1 h.one
  · rw [pair_radius0, pair_radius1, mul_div_cancel_left₀ _ ha.ne']
    exact key lam (by rw [h.there]; simp)
  · rw [pair_radius0, pair_radius1, show a / (a * lam) = 1 / lam by field_simp]
    exact key _ h.back
  · rw [pair_radius1, div_self (by positivity)]; exact key 1 h.one

/-- The near-field matrix of the pair of the script is built from the scalars of its column. -/
theorem pair_fromScalars {T : ScalarTable} {l : ℕ} (ha : 0 < a) (hl : 0 < lam) (hs : 0 < s)
    (hs8 : 1 / 10 ^ 8 < s * (a + a * lam) * 0.5) (hk : s < 2 * k) (h : PairTabulated T lam l)
    (mu : ℝ) (bb : Bool) :
    ∃ R M, generate_R2Bexact T (pairPosdata a lam s) k mu bb = some R ∧
      (∀ i j, R.get i j = mu * M.get i j) ∧
      FromScalars M a (scalarsAt T 0 s l) (scalarsAt T 1 s l) := by
  have hP := pair_sensible ha hl hs8
  obtain ⟨M, h1, h2, h3⟩ := C20_entry hP (by linarith) (pair_tabulated ha hl h (s := s) (k := k)) bb
  refine ⟨NDMat.smul mu M, M, ?_, fun _ _ => rfl, ?_⟩
  · unfold generate_R2Bexact R2BexactOfPairs
    have h1' : generate_R2Bexact_loop T
        (NDMat.zeros (11 * (pairPosdata a lam s).Ns + 6 * (pairPosdata a lam s).Nd)
          (11 * (pairPosdata a lam s).Ns + 6 * (pairPosdata a lam s).Nd))
        (pairPosdata a lam s).Ns (pairPosdata a lam s).Nd (pairPosdata a lam s).beadSize bb
        (close_particles ((pairPosdata a lam s).Ns + 2 * (pairPosdata a lam s).Nd)
          (pairPosdata a lam s).beadPos (pairPosdata a lam s).beadSize k) = some M := h1
    dsimp only
    rw [h1', Option.bind_eq_bind, Option.bind_some, if_neg (by simp [pairPosdata])]
  · have hr : ∀ x < 2, ∀ c, HasRow (pairPosdata a lam s).Ns (pairPosdata a lam s).Nd x c := by
      intro x hx c
      cases c <;> simpa [HasRow, pairPosdata] using hx
    have hlam : radius (pairPosdata a lam s) 1 / radius (pairPosdata a lam s) 0 = lam := by
      rw [pair_radius0, pair_radius1, mul_div_cancel_left₀ _ ha.ne']
    have hts : ∀ g, tableScal T g lam s = scalarsAt T g s l := by
      intro g; simp [tableScal, h.there]
    refine ⟨?_, ?_, ?_⟩
    · intro c1 c2
      have := h3 0 c1 0 c2 (hr 0 (by norm_num) c1) (hr 0 (by norm_num) c2)
      refine this.trans ?_
      unfold systemNear
      rw [if_pos rfl, show beads (pairPosdata a lam s) = 2 from rfl, Finset.sum_range_succ,
        Finset.sum_range_one, if_pos rfl, if_neg (by norm_num), pair_link01 ha hl hs hk, zero_add]
      show nearSelf (tableScal T 0 _ s) _ ex c1 c2 = _
      rw [hlam, hts, pair_radius0]
    · intro c1 c2 hc
      have := h3 0 c1 1 c2 (hr 0 (by norm_num) c1) (hr 1 (by norm_num) c2)
      refine this.trans ?_
      unfold systemNear
      rw [if_neg (by norm_num), if_neg (by simp [pairPosdata]), pair_link01 ha hl hs hk]
      show nearPair (tableScal T 1 _ s) _ _ _ _ ex c1 c2 = _
      unfold nearPair
      rw [if_pos (by rcases lt_or_eq_of_le hc with h | h; exacts [Or.inl h, Or.inr ⟨h, by norm_num⟩]),
        hlam, hts, pair_radius0]
    · intro c1 c2 hc
      have := h3 1 c1 0 c2 (hr 1 (by norm_num) c1) (hr 0 (by norm_num) c2)
      refine this.trans ?_
      unfold systemNear
      rw [if_neg (by norm_num), if_neg (by simp [pairPosdata]), pair_link10 ha hl hs hk]
      show nearPair _ (tableScal T 1 _ s) _ _ _ (fun i => -ex i) c1 c2 = _
      unfold nearPair
      rw [if_neg (by omega), hlam, hts, pair_radius0]
      simp only [neg_neg]

end

theorem nth_scalarsAt (T : ScalarTable) (g : ℕ) (s : ℝ) (l : ℕ) {κ : ℕ} (h : κ < 11) :
    (scalarsAt T g s l).nth κ = XYZ T κ g s l := by
  interval_cases κ <;> rfl

theorem extract_add (M N : NDMat) (a : ℝ) (κ g : ℕ) :
    extractScalar (M.add N) a κ g = extractScalar M a κ g + extractScalar N a κ g := by
  unfold extractScalar
  dsimp only [NDMat.add]
  split <;> ring

theorem extract_mul {M N : NDMat} {c : ℝ} (h : ∀ i j, M.get i j = c * N.get i j) (a : ℝ) (κ g : ℕ) :
    extractScalar M a κ g = c * extractScalar N a κ g := by
  unfold extractScalar
  dsimp only
  simp only [h]
  split <;> ring

/-- **C44** (read back). For two spheres of any sizes on the first axis, at any scaled distance `s` within the
cutoff: reading the 22 scalars off the simulation's near-field matrix gives back the tabulated scalars it
was built from, times the viscosity. -/
theorem C44_read_back {T : ScalarTable} {a lam s k : ℝ} {l : ℕ} (ha : 0 < a) (hl : 0 < lam) (hs : 0 < s)
    (hs8 : 1 / 10 ^ 8 < s * (a + a * lam) * 0.5) (hk : s < 2 * k) (h : PairTabulated T lam l)
    (mu : ℝ) (bb : Bool) :
    ∃ R, generate_R2Bexact T (pairPosdata a lam s) k mu bb = some R ∧
      ∀ κ < 11, ∀ g < 2, extractScalar R a κ g = mu * XYZ T κ g s l := by
  obtain ⟨R, M, h1, h2, h3⟩ := pair_fromScalars ha hl hs hs8 hk h mu bb
  refine ⟨R, h1, fun κ hκ g hg => ?_⟩
  rw [extract_mul h2, ← nth_scalarsAt T g s l hκ]
  congr 1
  have := extract_of_scalars ha.ne' h3 hκ
  interval_cases g
  exacts [this.1, this.2]

theorem mapM_getD {α β : Type} (f : α → Option β) (d : α) (e : β) : ∀ (l : List α) (l' : List β),
    l.mapM f = some l' → ∀ i < l.length, f (l.getD i d) = some (l'.getD i e) := by
  intro l
  induction l with
  | nil => intro l' _ i hi; simp at hi
  | cons x xs ih =>
    intro l' h i hi
    rw [List.mapM_cons, Option.bind_eq_bind, Option.bind_eq_some_iff] at h
    obtain ⟨y, hy, h⟩ := h
    rw [Option.bind_eq_bind, Option.bind_eq_some_iff] at h
    obtain ⟨ys, hys, h⟩ := h
    obtain rfl : y :: ys = l' := by simpa using h
    cases i with
    | zero => simpa using hy
    | succ i =>
      simp only [List.length_cons] at hi
      simpa using ih ys hys i (by omega)

/-- **C44** (round trip). For a table made by the script from the scalars `T`, and two spheres at a tabulated
scaled distance and size ratio (within the cutoff): the grand resistance matrix of the simulation, far field
plus near field, has exactly the scalars `T` one started from. So the far field, which the script subtracts
and the simulation adds, is neither counted twice nor lost. -/
theorem C44_round_trip {T T' : ScalarTable} (hT : subtractR2Binfinity T = some T')
    (hx : T.sDash.Pairwise (· < ·)) {n l : ℕ} (hn : n < T.sDash.length) (hlT : l < T.lam.length)
    (hl : 0 < T.lam.getD l 0) (hs : 0 < T.sDash.getD n 0)
    (hs8 : 1 / 10 ^ 8 < T.sDash.getD n 0 * (1 + 1 * T.lam.getD l 0) * 0.5)
    {k : ℝ} (hk : T.sDash.getD n 0 < 2 * k) (h : PairTabulated T (T.lam.getD l 0) l) (last : NDMat) :
    ∃ R C, generate_grand_resistance_matrix T' (pairPosdata 1 (T.lam.getD l 0) (T.sDash.getD n 0)) last true k
        false false 1 true = some (R, C) ∧
      ∀ κ < 11, ∀ g < 2, extractScalar R 1 κ g = T.raw κ g n l := by
  unfold subtractR2Binfinity at hT
  rw [Option.bind_eq_bind, Option.bind_eq_some_iff] at hT
  obtain ⟨cells, hc, hT⟩ := hT
  have hT := Option.some.inj hT
  have h1 := mapM_getD _ 0 [] _ _ hc l hlT
  have h2 := mapM_getD _ 0 (NDMat.zeros 22 22) _ _ h1 n hn
  set Rinf := (cells.getD l []).getD n (NDMat.zeros 22 22) with hRinf
  subst hT
  set T' := subtractCells T fun n l => (cells.getD l []).getD n (NDMat.zeros 22 22) with hT'
  obtain ⟨N, hN, hNs⟩ := C44_read_back (T := T') (a := 1) one_pos hl hs hs8 hk
    ⟨h.there, h.back, h.one⟩ 1 true
  refine ⟨N.add Rinf, Rinf, ?_, fun κ hκ g hg => ?_⟩
  · unfold generate_grand_resistance_matrix
    simp only [if_true, Option.bind_eq_bind]
    rw [h2, Option.bind_some, hN, Option.bind_some]
  · rw [extract_add, hNs κ hκ g hg, one_mul]
    have := (C22_interp hx (List.ne_nil_of_length_pos (by omega)) fun n => T'.raw κ g n l).1 n hn
    have e : XYZ T' κ g (T.sDash.getD n 0) l = T'.raw κ g n l := this
    rw [e]
    show T.raw κ g n l - extractScalar Rinf 1 κ g + _ = _
    ring

/-! ## Examples -/

/-- Two spheres far apart are a dilute suspension. -/
theorem pair_dilute {a lam s : ℝ} (ha : 0 < a) (hl : 0 < lam) (hs : 3520 < s) :
    Dilute (pairPosdata a lam s) := by
  have h0 : 0 ≤ s * (a + a * lam) * 0.5 := by positivity
  have hq : Real.sqrt (a * (a * lam)) ≤ (a + a * lam) * 0.5 := by
    refine Real.sqrt_le_iff.mpr ⟨by positivity, ?_⟩
    nlinarith [sq_nonneg (a - a * lam)]
  have hlt : Real.sqrt (a * (a * lam)) / (s * (a + a * lam) * 0.5) < 1 / 3520 := by
    rw [div_lt_div_iff₀ (by positivity) (by norm_num)]
    have : 0 < (a + a * lam) * 0.5 := by positivity
    nlinarith
  intro x hx
  have hx' : x < 2 := hx
  rw [show beads (pairPosdata a lam s) = 2 from rfl]
  interval_cases x
  · rw [show (Finset.range 2).erase 0 = {1} by decide, Finset.sum_singleton, pair_len' h0, pair_radius0,
      pair_radius1]
    exact hlt
  · rw [show (Finset.range 2).erase 1 = {0} by decide, Finset.sum_singleton, pair_len h0, pair_radius0,
      pair_radius1, mul_comm (a * lam) a]
    exact hlt

/-- A table of large distances. -/
noncomputable def farT : ScalarTable where
  sDash := [4000, 5000]
  lam := [1 / 2, 1, 2]
  raw := fun k g n l => k + 2 * g - 3 * n + l

theorem farT_index {l : ℕ} (hl : l < 3) : lamIndex farT (farT.lam.getD l 0) = some l := by
  have hl' : l < farT.lam.length := hl
  refine ((C22_ratio farT _).1 l).mpr ⟨hl', by
    rw [List.getD_eq_getElem _ _ hl', sub_self, abs_zero]; positivity, ?_⟩
  intro m hm
  interval_cases l <;> interval_cases m <;> norm_num [farT, abs_of_pos, abs_of_neg]

theorem mapM_isSome {α β : Type} (f : α → Option β) : ∀ l : List α, (∀ x ∈ l, ∃ y, f x = some y) →
    ∃ l', l.mapM f = some l' := by
  intro l
  induction l with
  | nil => exact fun _ => ⟨[], rfl⟩
  | cons x xs ih =>
    intro h
    obtain ⟨y, hy⟩ := h x (by simp)
    obtain ⟨ys, hys⟩ := ih fun z hz => h z (List.mem_cons_of_mem _ hz)
    exact ⟨y :: ys, by rw [List.mapM_cons, hy, hys]; rfl⟩

theorem farT_subtract : ∃ T', subtractR2Binfinity farT = some T' := by
  obtain ⟨cells, h⟩ := mapM_isSome (fun lam => farT.sDash.mapM fun s_dash =>
      (generate_Minfinity (pairPosdata 1 lam s_dash) 1 true).inv) farT.lam (by
    intro lam hlam
    refine mapM_isSome _ _ fun s hs => ?_
    have hl : 0 < lam := by
      have : lam ∈ [(1 / 2 : ℝ), 1, 2] := hlam
      simp only [List.mem_cons, List.not_mem_nil, or_false] at this
      rcases this with rfl | rfl | rfl <;> norm_num
    have hs' : 3520 < s := by
      have : s ∈ [(4000 : ℝ), 5000] := hs
      simp only [List.mem_cons, List.not_mem_nil, or_false] at this
      rcases this with rfl | rfl <;> norm_num
    obtain ⟨C, hC, -⟩ := C49_inverse (pair_sensible one_pos hl (lt_of_lt_of_le (by norm_num : (1 / 10 ^ 8 : ℝ)
      < 1760) (by nlinarith))) (pair_dilute one_pos hl hs') one_pos true
    exact ⟨C, hC⟩)
  exact ⟨_, by unfold subtractR2Binfinity; rw [h]; rfl⟩

theorem farT_pair : PairTabulated farT 2 2 := by
  refine ⟨farT_index (l := 2) (by norm_num), ?_, ?_⟩
  · have := farT_index (l := 0) (by norm_num)
    rw [show farT.lam.getD 0 0 = 1 / 2 from rfl] at this
    rw [this]; simp
  · have := farT_index (l := 1) (by norm_num)
    rw [show farT.lam.getD 1 0 = 1 from rfl] at this
    rw [this]; simp

/-- Spheres of radius 3 and 6, between two tabulated distances. -/
example := C44_read_back (T := farT) (a := 3) (lam := 2) (s := 4321) (k := 3000) (l := 2) (by norm_num)
  (by norm_num) (by norm_num) (by norm_num) (by norm_num) farT_pair 7 false

/-- The table of large distances, for spheres of radius 1 and 2. -/
example : ∃ T', subtractR2Binfinity farT = some T' ∧
    ∃ R C, generate_grand_resistance_matrix T' (pairPosdata 1 2 5000) (NDMat.zeros 0 0) true 3000
        false false 1 true = some (R, C) ∧
      ∀ κ < 11, ∀ g < 2, extractScalar R 1 κ g = farT.raw κ g 1 2 := by
  obtain ⟨T', h⟩ := farT_subtract
  refine ⟨T', h, ?_⟩
  exact C44_round_trip h (by simp [farT]; norm_num) (n := 1) (l := 2) (by simp [farT]) (by simp [farT])
    (by norm_num [farT]) (by norm_num [farT]) (by norm_num [farT]) (k := 3000) (by norm_num [farT]) farT_pair _

end SD
