import Verif.Lemmas.PairMotion
import Verif.Lemmas.SolveRule
import Verif.Lemmas.SolveTurn

/-!
# Two spheres, from the two-sphere program to the motions the simulation finds (C73)

The Fortran program solves the two-sphere mobility problem for a list of distances and size ratios. Five scripts turn
its output into a table, and the simulation reads the table, builds the grand resistance matrix and solves it. For two
spheres at one of those distances and ratios the end of this chain is its beginning: loads and motions are related
as in the two-sphere mobility problem, in any place and direction, at any size and viscosity.
-/

set_option autoImplicit false

namespace SD

open Spec Pair TwoSphere

/-- What the theorems of this file are about: the tables made by the scripts, and two spheres of a tabulated size ratio
at a tabulated distance. Sphere `p` is the larger one. -/
structure Spec.Chain (run : ℝ → ℝ → FCase → ℕ → ℝ) (ss mm lams : List ℝ) (T' : ScalarTable) (lam s : ℝ) (P : PosData)
    (p q : ℕ) (k : ℝ) : Prop where
  tables : ∃ M T, midfield_table run mm lams = some M ∧
    combine_scalars (Nearfield.nearfield_table ss lams) M = some T ∧ subtractR2Binfinity T = some T'
  ascending : (ss ++ mm).Pairwise (· < ·)
  ratios : ∀ t ∈ lams, 0 < t ∧ t ≤ 1
  nodup : lams.Nodup
  apart : Separated (Nearfield.with_reciprocals lams)
  one : 1 ∈ lams
  ratio : lam ∈ lams
  distance : s ∈ mm
  sensible : Sensible P
  spheres : P.Ns = 2
  dumbbells : P.Nd = 0
  numbers : p = 0 ∧ q = 1 ∨ p = 1 ∧ q = 0
  sizes : radius P q = lam * radius P p
  length : (len fun i => centre P q i - centre P p i) = s * ((radius P p + radius P q) / 2)
  clear : radius P p * (1 / 10 ^ 8) < len fun i => centre P q i - centre P p i
  near : s < 2 * k

/-- The unit vector from sphere `p` to sphere `q`. -/
noncomputable def Spec.axis (P : PosData) (p q : ℕ) (i : Fin 3) : ℝ :=
  (centre P q i - centre P p i) / len fun i => centre P q i - centre P p i

theorem len_swap (P : PosData) (p q : ℕ) :
    (len fun i => centre P p i - centre P q i) = len fun i => centre P q i - centre P p i := by
  unfold len
  congr 1
  exact Finset.sum_congr rfl fun i _ => by ring

theorem axis_unit {P : PosData} {p q : ℕ} (h : 0 < len fun i => centre P q i - centre P p i) :
    dotp (axis P p q) (axis P p q) = 1 := by
  have h2 : (len fun i => centre P q i - centre P p i) ^ 2 = ∑ i, (centre P q i - centre P p i) ^ 2 :=
    Real.sq_sqrt (Finset.sum_nonneg fun _ _ => sq_nonneg _)
  rw [Fin.sum_univ_three] at h2
  simp only [dotp, axis]
  field_simp
  linarith

/-- Every entry of the grand resistance matrix is that of the two-sphere resistance problem. -/
theorem chain_entries {run : ℝ → ℝ → FCase → ℕ → ℝ} {ss mm lams : List ℝ} {T' : ScalarTable} {lam s : ℝ} {P : PosData}
    {p q : ℕ} {k : ℝ} (H : Chain run ss mm lams T' lam s P p q k) {z : PairScalars} (hz : SolvesMobility z (run lam s))
    (hb : Balanced z) (hx : lam = 1 → exchange z = z) {mu : ℝ} (hmu : 0 < mu) (bb : Bool) (last : NDMat) :
    dotp (axis P p q) (axis P p q) = 1 ∧ 0 < radius P p ∧ Tabulated T'.lam P k ∧
    ∃ R C Z, generate_grand_resistance_matrix T' P last true k false false mu bb = some (R, C) ∧
      convert_dim_kim_mobility_to_dim_resistance z = some Z ∧
      ∀ x y c1 c2, R.get (row 2 (numbered p q x) c1) (row 2 (numbered p q y) c2)
        = mu * full (scaleZ (radius P p) Z) (axis P p q) x y c1 c2 := by
  obtain ⟨M, T, hM, hC, hT⟩ := H.tables
  obtain ⟨p0, p1⟩ := H.ratios _ H.ratio
  have ms : M.sDash = mm ∧ M.lam = Nearfield.with_reciprocals lams := by
    unfold midfield_table at hM
    rw [Option.bind_eq_bind, Option.bind_eq_some_iff] at hM
    obtain ⟨tab, -, hM⟩ := hM
    rw [← Option.some.inj hM]
    exact ⟨rfl, rfl⟩
  have es : T.sDash = ss ++ mm := by
    rw [combine_sDash hC (by rw [ms.1]; exact H.ascending.imp fun h => h.le), ms.1]; rfl
  have el : T.lam = Nearfield.with_reciprocals lams := combine_lam hC
  have el' : T'.lam = T.lam := by
    obtain ⟨cell, rfl, -⟩ := subtract_cells hT
    rfl
  obtain ⟨n, hn, en⟩ : ∃ n < mm.length, mm.getD n 0 = s := by
    obtain ⟨n, hn, e⟩ := List.getElem_of_mem H.distance
    exact ⟨n, hn, by rw [List.getD_eq_getElem _ _ hn, e]⟩
  have memR : lam ∈ Nearfield.with_reciprocals lams := (mem_with_reciprocals _ _).mpr (.inl H.ratio)
  have memR' : 1 / lam ∈ Nearfield.with_reciprocals lams :=
    (mem_with_reciprocals _ _).mpr (.inr (by rw [one_div_one_div]; exact H.ratio))
  have look : ∀ r ∈ Nearfield.with_reciprocals lams, T.lam.idxOf r < T.lam.length ∧ T.lam.getD (T.lam.idxOf r) 0 = r := by
    intro r hr
    rw [← el] at hr
    have hi := List.idxOf_lt_length_iff.mpr hr
    exact ⟨hi, by rw [List.getD_eq_getElem _ _ hi, List.getElem_idxOf hi]⟩
  have hbeads : beads P = 2 := by unfold beads; rw [H.spheres, H.dumbbells]
  have hpl : p < beads P := by have := H.numbers; omega
  have hql : q < beads P := by have := H.numbers; omega
  have pp := H.sensible.1 p hpl
  have pq := H.sensible.1 q hql
  have rl : radius P q / radius P p = lam := by rw [H.sizes]; field_simp
  have rl' : radius P p / radius P q = 1 / lam := by rw [H.sizes]; field_simp
  have pL : 0 < len fun i => centre P q i - centre P p i := lt_trans (by positivity) H.clear
  have rs : (len fun i => centre P q i - centre P p i) / ((radius P p + radius P q) / 2) = s := by
    rw [H.length]; field_simp
  have rsT : T.sDash.getD (ss.length + n) 0 = s := by
    rw [es, List.getD_append_right _ _ _ _ (by omega), Nat.add_sub_cancel_left, en]
  have clear' : radius P q * (1 / 10 ^ 8) < len fun i => centre P q i - centre P p i := by
    refine lt_of_le_of_lt ?_ H.clear
    rw [H.sizes]
    nlinarith
  have hd := axis_unit pL
  have hone : (1 : ℝ) ∈ T.lam := by rw [el]; exact (mem_with_reciprocals _ _).mpr (.inl H.one)
  have tab : Tabulated T'.lam P k := by
    intro x hx y hy _
    rw [el', el]
    have hr : radius P y / radius P x ∈ Nearfield.with_reciprocals lams := by
      rw [hbeads] at hx hy
      have h1 : (1 : ℝ) ∈ Nearfield.with_reciprocals lams := by rw [← el]; exact hone
      have hx' : x = p ∨ x = q := by have := H.numbers; omega
      have hy' : y = p ∨ y = q := by have := H.numbers; omega
      rcases hx' with rfl | rfl <;> rcases hy' with rfl | rfl
      · rw [div_self pp.ne']; exact h1
      · rw [rl]; exact memR
      · rw [rl']; exact memR'
      · rw [div_self pq.ne']; exact h1
    exact ⟨_, hr, by rw [sub_self, abs_zero]; positivity⟩
  let scal : ℕ → ℝ → ℝ → Scalars := fun g r _ => cellScalars T g (ss.length + n) (T.lam.idxOf r)
  have hnT : ss.length + n < T.sDash.length := by rw [es, List.length_append]; omega
  obtain ⟨R, C, hG, hent⟩ : ∃ R C, generate_grand_resistance_matrix T' P last true k false false mu bb = some (R, C) ∧
      ∀ x < 2, ∀ y < 2, ∀ c1 c2, R.get (row 2 x c1) (row 2 y c2)
        = mu * systemNear 2 2 bb (radius P) scal (openLink k (centre P) (radius P)) x c1 y c2 := by
    rcases H.numbers with ⟨rfl, rfl⟩ | ⟨rfl, rfl⟩
    · exact C44_two_spheres hT (by rw [es]; exact H.ascending) (by rw [el]; exact H.apart)
        (by rw [el]; exact nodup_with_reciprocals H.nodup) hone H.sensible H.spheres H.dumbbells
        (n := ss.length + n) (l := T.lam.idxOf lam) (l' := T.lam.idxOf (1 / lam)) hnT (look _ memR).1 (look _ memR').1
        (by rw [(look _ memR).2, rl]) (by rw [(look _ memR').2, rl']) (by rw [rsT, rs]) H.clear clear'
        (by rw [rsT]; exact H.near) hmu bb last scal (fun g => by simp only [scal, rl]) fun g => by simp only [scal, rl']
    · exact C44_two_spheres hT (by rw [es]; exact H.ascending) (by rw [el]; exact H.apart)
        (by rw [el]; exact nodup_with_reciprocals H.nodup) hone H.sensible H.spheres H.dumbbells
        (n := ss.length + n) (l := T.lam.idxOf (1 / lam)) (l' := T.lam.idxOf lam) hnT (look _ memR').1 (look _ memR).1
        (by rw [(look _ memR').2, rl']) (by rw [(look _ memR).2, rl])
        (by rw [rsT, len_swap, add_comm (radius P 0), rs]) (by rw [len_swap]; exact clear')
        (by rw [len_swap]; exact H.clear)
        (by rw [rsT]; exact H.near) hmu bb last scal (fun g => by simp only [scal, rl']) fun g => by simp only [scal, rl]
  obtain ⟨Z, hZ, z1, z2, z3, z4⟩ := midfield_at (n := n) (l := T.lam.idxOf lam) (l' := T.lam.idxOf (1 / lam)) hM H.ratios
    H.ratio hn (by rw [en]; exact hz) hx (by rw [ms.2, ← el]; exact (look _ memR).2)
    (by rw [ms.2, ← el]; exact (look _ memR').2)
  have cell : ∀ g m, cellScalars T g (ss.length + n) m = cellScalars M g n m := by
    intro g m
    simp only [cellScalars, combine_raw hC,
      show ¬ ss.length + n < (Nearfield.nearfield_table ss lams).sDash.length from by
        show ¬ ss.length + n < ss.length; omega, if_false]
    simp only [show ss.length + n - (Nearfield.nearfield_table ss lams).sDash.length = n from Nat.add_sub_cancel_left _ _]
  have up : ∀ u : Scalars, dimS u (radius P p) = scaleS (radius P p) (dimS u 1) := fun u => by
    rw [← dimS_scale, mul_one]
  have up' : ∀ u : Scalars, dimS u (radius P q) = scaleS (radius P p) (dimS u lam) := fun u => by
    rw [← dimS_scale, H.sizes, mul_comm]
  have k1 : openLink k (centre P) (radius P) p q = some (axis P p q, s) := by
    unfold openLink
    dsimp only
    rw [rs, if_pos H.near]
    rfl
  have k2 : openLink k (centre P) (radius P) q p = some (fun i => -axis P p q i, s) := by
    unfold openLink
    dsimp only
    rw [len_swap, add_comm (radius P q), rs, if_pos H.near]
    congr 2
    funext i
    unfold axis
    ring
  have hB := scale_balanced (C45_balanced hZ hb) (radius P p)
  refine ⟨hd, pp, tab, R, C, Z, hG, hZ, fun x y c1 c2 => ?_⟩
  have lt : ∀ x, numbered p q x < 2 := by
    intro x
    rcases H.numbers with ⟨rfl, rfl⟩ | ⟨rfl, rfl⟩ <;> fin_cases x <;> decide
  rw [hent _ (lt x) _ (lt y)]
  congr 1
  obtain ⟨s1, s2, s3, s4⟩ := systemNear_two H.numbers (bb := bb) (rad := radius P) (scal := scal) k1 k2 c1 c2
  rw [rl] at s1 s3 s4
  rw [rl'] at s2 s3 s4
  have w1 : dimS (scal 0 lam s) (radius P p) = (scaleZ (radius P p) Z).at 0 0 := by
    rw [up, at_scale, ← z1]; simp only [scal, cell]
  have w2 : dimS (scal 1 lam s) (radius P p) = (scaleZ (radius P p) Z).at 0 1 := by
    rw [up, at_scale, ← z2]; simp only [scal, cell]
  have w3 : flipS (dimS (scal 0 (1 / lam) s) (radius P q)) = (scaleZ (radius P p) Z).at 1 1 := by
    rw [up', flipS_scale, at_scale, ← z3]; simp only [scal, cell]
  have w4 : flipS (dimS (scal 1 (1 / lam) s) (radius P q)) = (scaleZ (radius P p) Z).at 1 0 := by
    rw [up', flipS_scale, at_scale, ← z4]; simp only [scal, cell]
  fin_cases x <;> fin_cases y
  · exact s1.trans (nearSelf_full w1 c1 c2)
  · exact s3.trans (nearPair_full hB hd w2 w4 _ c1 c2).1
  · exact s4.trans (nearPair_full hB hd w2 w4 _ c1 c2).2
  · exact s2.trans (nearSelf_full' w3 c1 c2)

theorem two_eq (l : List Vec3) (p q : ℕ) (c : ℝ) : two l p q c = fun x i => l.getD (numbered p q x) 0 i / c := by
  funext x i
  fin_cases x <;> rfl

theorem two3_eq (l : List Mat3) (p q : ℕ) (c : ℝ) : two3 l p q c = fun x i j => l.getD (numbered p q x) 0 i j / c := by
  funext x i j
  fin_cases x <;> rfl

theorem solves_iff {z Z : PairScalars} (hZ : convert_dim_kim_mobility_to_dim_resistance z = some Z) (hb : Balanced z)
    {d : Fin 3 → ℝ} (hd : dotp d d = 1) {p q : ℕ} (hpq : p = 0 ∧ q = 1 ∨ p = 1 ∧ q = 0) {mu a : ℝ} (hmu : 0 < mu)
    (ha : 0 < a) {R : NDMat} (hR : ∀ x y c1 c2, R.get (row 2 (numbered p q x) c1) (row 2 (numbered p q y) c2)
      = mu * full (scaleZ a Z) d x y c1 c2) {o : Outputs} (ho : TwoRows o) :
    Solves 2 0 R o ↔ MovesLike z mu a d p q o := by
  have lt : ∀ x, numbered p q x < 2 := by
    intro x
    rcases hpq with ⟨rfl, rfl⟩ | ⟨rfl, rfl⟩ <;> fin_cases x <;> decide
  have hE := fun x => ho.strain _ (lt x)
  have hS := fun x => ho.stress _ (lt x)
  have key := linRel_iff hd hpq hmu.ne' hR (Ua := o.Ua) (Oa := o.Oa) (Fa := o.Fa) (Ta := o.Ta) (Ub := o.Ub)
    (Hb := o.HalfDUb) (Fb := o.Fb) (Db := o.DFb) hE hS
  rw [resistance_scale ha.ne' hmu.ne', ← C45_inverse hZ hb.XA hb.YA hb.YC hd _ _ _ _ hE] at key
  unfold MovesLike
  rw [two_eq, two_eq, two_eq, two_eq, two3_eq, two3_eq]
  simp only [div_one]
  exact ⟨fun h => key.mp h.rel, fun h => ⟨key.mpr h, ho.Fa, ho.Ta, ho.Sa, by rw [ho.Fb]; rfl, by rw [ho.DFb]; rfl,
    ho.Ua, ho.Oa, ho.Ea, by rw [ho.Ub]; rfl, by rw [ho.HalfDUb]; rfl⟩⟩

/-- **C73** (exact). Let the two-sphere program, asked for the ratio `lam` and the distance `s`, solve the mobility
problem with the scalars `z`. The table that the scripts make of this, and two spheres of that ratio at that distance,
give a grand resistance matrix, and loads and motions obey it exactly if they solve the two-sphere mobility problem with
`z`, in units of the larger radius and of the viscosity. -/
theorem C73_exact {run : ℝ → ℝ → FCase → ℕ → ℝ} {ss mm lams : List ℝ} {T' : ScalarTable} {lam s : ℝ} {P : PosData}
    {p q : ℕ} {k : ℝ} (H : Chain run ss mm lams T' lam s P p q k) {z : PairScalars} (hz : SolvesMobility z (run lam s))
    (hb : Balanced z) (hx : lam = 1 → exchange z = z) {mu : ℝ} (hmu : 0 < mu) (bb : Bool) (last : NDMat) :
    ∃ R C, generate_grand_resistance_matrix T' P last true k false false mu bb = some (R, C) ∧
      ∀ o, TwoRows o → (Solves 2 0 R o ↔ MovesLike z mu (radius P p) (axis P p q) p q o) := by
  obtain ⟨hd, pp, -, R, C, Z, hG, hZ, hent⟩ := chain_entries H hz hb hx hmu bb last
  exact ⟨R, C, hG, fun o ho => solves_iff hZ hb hd H.numbers hmu pp hent ho⟩

/-- **C73** (solver). Whatever the solver returns for such spheres, in any of the input forms with spheres, keeps the
prescribed values and moves as the two-sphere solution says. -/
theorem C73_solver {run : ℝ → ℝ → FCase → ℕ → ℝ} {ss mm lams : List ℝ} {T' : ScalarTable} {lam s : ℝ} {P : PosData}
    {p q : ℕ} {k : ℝ} (H : Chain run ss mm lams T' lam s P p q k) (hk : 0 < k) {z : PairScalars}
    (hz : SolvesMobility z (run lam s)) (hb : Balanced z) (hx : lam = 1 → exchange z = z) {mu : ℝ} (hmu : 0 < mu)
    {bb : Bool} {last R C : NDMat} (h : generate_grand_resistance_matrix T' P last true k false false mu bb = some (R, C))
    {form : InputForm} (hf : form ≠ .duf) {inp : Inputs} (hsz : Sized 2 0 inp) (hi : Traceless inp) {o : Outputs}
    (ho : solveForm form false 2 0 R inp = some o) :
    Echo form 2 0 inp o ∧ MovesLike z mu (radius P p) (axis P p q) p q o := by
  obtain ⟨hd, pp, tab, R', C', Z, hG, hZ, hent⟩ := chain_entries H hz hb hx hmu bb last
  rw [h, Option.some.injEq, Prod.mk.injEq] at hG
  obtain ⟨rfl, rfl⟩ := hG
  have hall : formAllowed form 2 := ⟨by simp, fun _ => hf⟩
  have hside : side P = 11 * 2 + 6 * 0 := by unfold side; rw [H.spheres, H.dumbbells]
  have hdims := (grand_dims H.sensible hk tab (by simp) h).1
  rw [hside] at hdims
  have hsym : Symm R.get (11 * 2 + 6 * 0) := fun i _ j _ => (C25_symmetric H.sensible hk tab (by simp) h i j).1
  obtain ⟨hsol, hecho⟩ := solve_echo hall hsz hdims.1 hsym ho
  obtain ⟨tS, tE⟩ := out_traceless hall hsz hdims.1 hsym hi ho
  refine ⟨hecho, (solves_iff hZ hb hd H.numbers hmu pp hent ?_).mp hsol⟩
  refine ⟨hsol.Fa, hsol.Ta, hsol.Sa, List.length_eq_zero_iff.mp hsol.Fb, List.length_eq_zero_iff.mp hsol.DFb, hsol.Ua,
    hsol.Oa, hsol.Ea, List.length_eq_zero_iff.mp hsol.Ub, List.length_eq_zero_iff.mp hsol.HalfDUb, fun x hx => ?_,
    fun x hx => ?_⟩
  · rw [List.getD_eq_getElem _ _ (by rw [hsol.Sa]; exact hx)]
    exact tS _ (List.getElem_mem _)
  · have hl : x < o.Ea.length := lt_of_lt_of_le hx hsol.Ea
    rw [List.getD_eq_getElem _ _ hl]
    refine tE _ ?_
    rw [List.mem_take_iff_getElem]
    exact ⟨x, by omega, rfl⟩

/-- **C73** (solvable). If the two-sphere solution costs energy, the grand resistance matrix of such spheres is positive
definite and the solver returns an answer for every complete input. -/
theorem C73_solvable {run : ℝ → ℝ → FCase → ℕ → ℝ} {ss mm lams : List ℝ} {T' : ScalarTable} {lam s : ℝ} {P : PosData}
    {p q : ℕ} {k : ℝ} (H : Chain run ss mm lams T' lam s P p q k) (hk : 0 < k) {z : PairScalars}
    (hz : SolvesMobility z (run lam s)) (hb : Balanced z) (hx : lam = 1 → exchange z = z) (hD : PairDissipates z)
    {mu : ℝ} (hmu : 0 < mu) (bb : Bool) (last : NDMat) :
    ∃ R C, generate_grand_resistance_matrix T' P last true k false false mu bb = some (R, C) ∧
      PosDef R.get 22 ∧ ∀ form inp, form ≠ .duf → Sized 2 0 inp → Complete form 2 0 inp →
        ∃ o, solveForm form false 2 0 R inp = some o := by
  obtain ⟨hd, pp, tab, R, C, Z, hG, hZ, hent⟩ := chain_entries H hz hb hx hmu bb last
  have hpos := posDef_of hZ hb hD hd H.numbers hmu pp hent
  refine ⟨R, C, hG, hpos, fun form inp hf hsz hc => ?_⟩
  have hside : side P = 11 * 2 + 6 * 0 := by unfold side; rw [H.spheres, H.dumbbells]
  have hdims := (grand_dims H.sensible hk tab (by simp) hG).1
  rw [hside] at hdims
  exact C09_spd_succeeds ⟨by simp, fun _ => hf⟩ hsz hdims.1 hdims.2
    (fun i _ j _ => (C25_symmetric H.sensible hk tab (by simp) hG i j).1) hpos hc

/-! ## Examples -/

/-- Scalars of a pair of equal spheres with forces, torques and strains coupled. -/
def twinZ : PairScalars where
  XA := quad 3 1 1 3
  YA := quad 2 1 1 2
  YB := quad 0 0 0 0
  XC := quad 3 1 1 3
  YC := quad 2 1 1 2
  XG := quad 1 2 (-2) (-1)
  YG := quad 3 1 (-1) (-3)
  YH := quad 1 2 2 1
  XM := quad 2 1 1 2
  YM := quad 2 1 1 2
  ZM := quad 2 1 1 2

theorem twinZ_balanced : Balanced twinZ := ⟨rfl, rfl, rfl, rfl, rfl, rfl, rfl⟩

theorem twinZ_exchange : exchange twinZ = twinZ := by
  simp only [exchange, twinZ, PairScalars.mk.injEq]
  refine ⟨?_, ?_, ?_, ?_, ?_, ?_, ?_, ?_, ?_, ?_, ?_⟩ <;> funext i j <;> fin_cases i <;> fin_cases j <;> simp [quad]

theorem twinZ_converts : ∃ R, convert_dim_kim_mobility_to_dim_resistance twinZ = some R := by
  rw [← Option.ne_none_iff_exists', Ne, C45_fails]
  have h : (matrix_yabc twinZ).det = 9 := by
    simp [matrix_yabc, twinZ, quad, Matrix.det_succ_row_zero, Fin.sum_univ_succ, Fin.succAbove]
    norm_num
  rw [h, Matrix.det_fin_two, Matrix.det_fin_two]
  simp [mat2, twinZ, quad]
  norm_num

theorem swap3 (G : Fin 3 → Fin 3 → Fin 3 → ℝ) (f : Fin 3 → ℝ) (e : Fin 3 → Fin 3 → ℝ) :
    ∑ i, f i * (-1 * ∑ j, ∑ k, G j k i * e j k) + ∑ i, ∑ j, (∑ k, G i j k * f k) * e i j = 0 := by
  simp only [Fin.sum_univ_three]
  ring

/-- In the mobility problem the couplings of loads and strain cost no energy. -/
theorem twoPower_eq {z : PairScalars} {d : Fin 3 → ℝ} {F T U O : Fin 2 → Fin 3 → ℝ} {E S : Fin 2 → Fin 3 → Fin 3 → ℝ}
    (hB : ∀ α β, z.YB α β = 0) (h : Mobility z d F T E U O S) : twoPower F T S U O E
      = ∑ α, ∑ β, (∑ i, F α i * ∑ j, kkA (z.XA α β) (z.YA α β) d i j * F β j
        + ∑ i, T α i * ∑ j, kkA (z.XC α β) (z.YC α β) d i j * T β j
        + ∑ i, ∑ j, (∑ k, ∑ l, kkM (z.XM α β) (z.YM α β) (z.ZM α β) d i j k l * E β k l) * E α i j) := by
  have b0 : ∀ α β i j, kkB (z.YB α β) d i j = 0 := fun α β i j => by rw [hB]; simp [kkB]
  have g := fun α β => swap3 (kkG (z.XG β α) (z.YG β α) d) (F α) (E β)
  have g' := fun α β => swap3 (kkH (z.YH β α) d) (T α) (E β)
  have e1 : ∀ α, ∑ i, F α i * U α i = ∑ β, (∑ i, F α i * ∑ j, kkA (z.XA α β) (z.YA α β) d i j * F β j
      + ∑ i, F α i * (-1 * ∑ j, ∑ k, kkG (z.XG β α) (z.YG β α) d j k i * E β j k)) := by
    intro α
    simp only [h.first, b0, zero_mul, Finset.sum_const_zero, add_zero, Fin.sum_univ_two, mul_add,
      Finset.sum_add_distrib]
  have e2 : ∀ α, ∑ i, T α i * O α i = ∑ β, (∑ i, T α i * ∑ j, kkA (z.XC α β) (z.YC α β) d i j * T β j
      + ∑ i, T α i * (-1 * ∑ j, ∑ k, kkH (z.YH β α) d j k i * E β j k)) := by
    intro α
    simp only [h.second, b0, zero_mul, Finset.sum_const_zero, zero_add, Fin.sum_univ_two, mul_add,
      Finset.sum_add_distrib]
  have e3 : ∀ α, ∑ i, ∑ j, S α i j * E α i j = ∑ β, (∑ i, ∑ j, (∑ k, kkG (z.XG α β) (z.YG α β) d i j k * F β k) * E α i j
      + ∑ i, ∑ j, (∑ k, kkH (z.YH α β) d i j k * T β k) * E α i j
      + ∑ i, ∑ j, (∑ k, ∑ l, kkM (z.XM α β) (z.YM α β) (z.ZM α β) d i j k l * E β k l) * E α i j) := by
    intro α
    simp only [h.third, Fin.sum_univ_two, add_mul, Finset.sum_add_distrib]
  unfold twoPower
  simp only [e1, e2, e3]
  have g00 := g 0 0
  have g01 := g 0 1
  have g10 := g 1 0
  have g11 := g 1 1
  have k00 := g' 0 0
  have k01 := g' 0 1
  have k10 := g' 1 0
  have k11 := g' 1 1
  simp only [Fin.sum_univ_two]
  linarith

theorem quad_sum (d a b : Fin 3 → ℝ) :
    (∑ i, a i * ∑ j, kkA 3 2 d i j * a j) + (∑ i, a i * ∑ j, kkA 1 1 d i j * b j)
      + ((∑ i, b i * ∑ j, kkA 1 1 d i j * a j) + ∑ i, b i * ∑ j, kkA 3 2 d i j * b j)
      = dotp a a + dotp b b + dotp (fun i => a i + b i) (fun i => a i + b i) + dotp d a ^ 2 + dotp d b ^ 2 := by
  simp [kkA, Fin.sum_univ_three, dotp, dlt]
  ring

theorem kkM_same (x : ℝ) (d : Fin 3 → ℝ) {E : Fin 3 → Fin 3 → ℝ} (hE : SymTraceless E) (i j : Fin 3) :
    ∑ k, ∑ l, kkM x x x d i j k l * E k l = x * E i j := by
  rw [kkM_app _ _ _ _ hE]
  simp only [par, per, zz]
  ring

theorem dotp_zero {a : Fin 3 → ℝ} (h : dotp a a ≤ 0) : a = 0 := by
  simp only [dotp] at h
  funext i
  fin_cases i <;> simp <;> nlinarith [mul_self_nonneg (a 0), mul_self_nonneg (a 1), mul_self_nonneg (a 2)]

theorem dotp_self_nonneg (a : Fin 3 → ℝ) : 0 ≤ dotp a a := by
  simp only [dotp]
  nlinarith [mul_self_nonneg (a 0), mul_self_nonneg (a 1), mul_self_nonneg (a 2)]

theorem twinZ_dissipates : PairDissipates twinZ := by
  intro d hd F T E U O S hE h hne
  have hB : ∀ α β, twinZ.YB α β = 0 := by intro α β; fin_cases α <;> fin_cases β <;> simp [twinZ, quad]
  have key : twoPower F T S U O E
      = (dotp (F 0) (F 0) + dotp (F 1) (F 1) + dotp (fun i => F 0 i + F 1 i) (fun i => F 0 i + F 1 i)
        + dotp d (F 0) ^ 2 + dotp d (F 1) ^ 2)
      + (dotp (T 0) (T 0) + dotp (T 1) (T 1) + dotp (fun i => T 0 i + T 1 i) (fun i => T 0 i + T 1 i)
        + dotp d (T 0) ^ 2 + dotp d (T 1) ^ 2)
      + ∑ i, ∑ j, (E 0 i j ^ 2 + E 1 i j ^ 2 + (E 0 i j + E 1 i j) ^ 2) := by
    rw [twoPower_eq hB h, ← quad_sum d (F 0) (F 1), ← quad_sum d (T 0) (T 1)]
    have m : ∀ α β x, twinZ.XM α β = x → twinZ.YM α β = x → twinZ.ZM α β = x → ∀ i j,
        ∑ k, ∑ l, kkM (twinZ.XM α β) (twinZ.YM α β) (twinZ.ZM α β) d i j k l * E β k l = x * E β i j := by
      intro α β x h1 h2 h3 i j
      rw [h1, h2, h3, kkM_same x d (hE β)]
    have m00 := m 0 0 2 rfl rfl rfl
    have m01 := m 0 1 1 rfl rfl rfl
    have m10 := m 1 0 1 rfl rfl rfl
    have m11 := m 1 1 2 rfl rfl rfl
    rw [Fin.sum_univ_two, Fin.sum_univ_two, Fin.sum_univ_two]
    simp only [m00, m01, m10, m11]
    have a00 : twinZ.XA 0 0 = 3 ∧ twinZ.YA 0 0 = 2 ∧ twinZ.XC 0 0 = 3 ∧ twinZ.YC 0 0 = 2 := ⟨rfl, rfl, rfl, rfl⟩
    have a01 : twinZ.XA 0 1 = 1 ∧ twinZ.YA 0 1 = 1 ∧ twinZ.XC 0 1 = 1 ∧ twinZ.YC 0 1 = 1 := ⟨rfl, rfl, rfl, rfl⟩
    have a10 : twinZ.XA 1 0 = 1 ∧ twinZ.YA 1 0 = 1 ∧ twinZ.XC 1 0 = 1 ∧ twinZ.YC 1 0 = 1 := ⟨rfl, rfl, rfl, rfl⟩
    have a11 : twinZ.XA 1 1 = 3 ∧ twinZ.YA 1 1 = 2 ∧ twinZ.XC 1 1 = 3 ∧ twinZ.YC 1 1 = 2 := ⟨rfl, rfl, rfl, rfl⟩
    rw [a00.1, a00.2.1, a00.2.2.1, a00.2.2.2, a01.1, a01.2.1, a01.2.2.1, a01.2.2.2, a10.1, a10.2.1, a10.2.2.1,
      a10.2.2.2, a11.1, a11.2.1, a11.2.2.1, a11.2.2.2]
    have hm : ∑ i, ∑ j, (E 0 i j ^ 2 + E 1 i j ^ 2 + (E 0 i j + E 1 i j) ^ 2)
        = ∑ i, ∑ j, 2 * E 0 i j * E 0 i j + ∑ i, ∑ j, 1 * E 1 i j * E 0 i j
          + (∑ i, ∑ j, 1 * E 0 i j * E 1 i j + ∑ i, ∑ j, 2 * E 1 i j * E 1 i j) := by
      simp only [← Finset.sum_add_distrib]
      exact Finset.sum_congr rfl fun i _ => Finset.sum_congr rfl fun j _ => by ring
    rw [hm]
    ring
  by_contra hle
  push Not at hle
  rw [key] at hle
  have n := dotp_self_nonneg
  have n1 := n (F 0)
  have n2 := n (F 1)
  have n3 := n fun i => F 0 i + F 1 i
  have n4 := n (T 0)
  have n5 := n (T 1)
  have n6 := n fun i => T 0 i + T 1 i
  have q1 := sq_nonneg (dotp d (F 0))
  have q2 := sq_nonneg (dotp d (F 1))
  have q3 := sq_nonneg (dotp d (T 0))
  have q4 := sq_nonneg (dotp d (T 1))
  have nE : ∀ i j, 0 ≤ E 0 i j ^ 2 + E 1 i j ^ 2 + (E 0 i j + E 1 i j) ^ 2 := fun i j => by positivity
  have nS : 0 ≤ ∑ i, ∑ j, (E 0 i j ^ 2 + E 1 i j ^ 2 + (E 0 i j + E 1 i j) ^ 2) :=
    Finset.sum_nonneg fun i _ => Finset.sum_nonneg fun j _ => nE i j
  have f0 : F 0 = 0 := dotp_zero (by linarith)
  have f1 : F 1 = 0 := dotp_zero (by linarith)
  have t0 : T 0 = 0 := dotp_zero (by linarith)
  have t1 : T 1 = 0 := dotp_zero (by linarith)
  have zS : ∑ i, ∑ j, (E 0 i j ^ 2 + E 1 i j ^ 2 + (E 0 i j + E 1 i j) ^ 2) = 0 := le_antisymm (by linarith) nS
  have zE : ∀ i j, E 0 i j ^ 2 + E 1 i j ^ 2 + (E 0 i j + E 1 i j) ^ 2 = 0 := by
    intro i j
    have h1 := (Finset.sum_eq_zero_iff_of_nonneg fun i _ => Finset.sum_nonneg fun j _ => nE i j).mp zS i
      (Finset.mem_univ _)
    exact (Finset.sum_eq_zero_iff_of_nonneg fun j _ => nE i j).mp h1 j (Finset.mem_univ _)
  have e0 : E 0 = 0 := by
    funext i j
    have := zE i j
    show E 0 i j = 0
    nlinarith [sq_nonneg (E 0 i j), sq_nonneg (E 1 i j), sq_nonneg (E 0 i j + E 1 i j)]
  have e1 : E 1 = 0 := by
    funext i j
    have := zE i j
    show E 1 i j = 0
    nlinarith [sq_nonneg (E 0 i j), sq_nonneg (E 1 i j), sq_nonneg (E 0 i j + E 1 i j)]
  have hU : ∀ α, U α = 0 := fun α => by
    funext i
    rw [h.first]
    simp [Fin.sum_univ_two, f0, f1, t0, t1, e0, e1]
  have hO : ∀ α, O α = 0 := fun α => by
    funext i
    rw [h.second]
    simp [Fin.sum_univ_two, f0, f1, t0, t1, e0, e1]
  obtain ⟨x, hx | hx | hx⟩ := hne
  · exact hx (hU x)
  · exact hx (hO x)
  · fin_cases x
    exacts [hx e0, hx e1]

/-- Two spheres of radius 3, obliquely placed, 15000 apart: `s' = 5000`. -/
noncomputable def twinP : PosData where
  Ns := 2
  Nd := 0
  sphereSize := fun _ => 3
  spherePos := fun i => if i = 0 then ![1, 1, 1] else ![5001, 10001, 10001]
  dumbSize := fun _ => 0
  dumbPos := fun _ _ => 0
  dumbDx := fun _ _ => 0

theorem twin_radius {x : ℕ} (h : x < 2) : radius twinP x = 3 := by simp [radius, twinP, h]

theorem twin_len : (len fun i => centre twinP 1 i - centre twinP 0 i) = 15000 := by
  unfold len
  rw [Real.sqrt_eq_iff_mul_self_eq (by positivity) (by norm_num)]
  simp [Fin.sum_univ_three, centre, twinP]
  norm_num

theorem twin_sensible : Sensible twinP := by
  constructor
  · intro x hx
    rw [twin_radius hx]; norm_num
  · intro x hx y hy hxy
    have hx' : x < 2 := hx
    have hy' : y < 2 := hy
    interval_cases x <;> interval_cases y
    · exact absurd rfl hxy
    · rw [len_swap, twin_len]; norm_num
    · rw [twin_len]; norm_num
    · exact absurd rfl hxy

/-- The scripts run on a program that solves the two-sphere problem with the scalars `twinZ`. -/
theorem twin_chain : ∃ run T', SolvesMobility twinZ (run (1 / 2) 5000) ∧ SolvesMobility twinZ (run 1 5000) ∧
    Chain run [4000] [5000] [1 / 2, 1] T' (1 / 2) 5000 obliqueP 1 0 3000 ∧
    Chain run [4000] [5000] [1 / 2, 1] T' 1 5000 twinP 0 1 3000 := by
  obtain ⟨run, hrun⟩ := solver_exists twinZ
  obtain ⟨Z, hZ⟩ := twinZ_converts
  have ht : XYZ_column run = some (nondimensionalise_scalars Z.toList resistance_scales) := by
    unfold XYZ_column
    rw [C45_decode hrun, hZ]
    rfl
  obtain ⟨tab, htab⟩ := mapM_isSome (fun lam => [(5000 : ℝ)].mapM fun s => XYZ_column ((fun _ _ => run) lam s))
    [(1 / 2 : ℝ), 1] fun _ _ => mapM_isSome _ _ fun _ _ => ⟨_, ht⟩
  obtain ⟨M, hM, hMs, hMl⟩ : ∃ M, midfield_table (fun _ _ => run) [5000] [1 / 2, 1] = some M ∧ M.sDash = [5000] ∧
      M.lam = Nearfield.with_reciprocals [1 / 2, 1] := by
    unfold midfield_table
    rw [htab]
    exact ⟨_, rfl, rfl, rfl⟩
  obtain ⟨T, hC⟩ : ∃ T, combine_scalars (Nearfield.nearfield_table [4000] [1 / 2, 1]) M = some T :=
    ⟨_, if_pos (by rw [hMl]; rfl)⟩
  have hs : T.sDash = [4000, 5000] := by
    rw [combine_sDash hC (by rw [hMs]; norm_num [Nearfield.nearfield_table]), hMs]; rfl
  obtain ⟨T', hT, -⟩ := oblique_case hs (combine_lam hC)
  have hrat : ∀ t ∈ [(1 / 2 : ℝ), 1], 0 < t ∧ t ≤ 1 := by
    intro lam h
    simp only [List.mem_cons, List.not_mem_nil, or_false] at h
    rcases h with rfl | rfl <;> norm_num
  refine ⟨fun _ _ => run, T', hrun, hrun, ?_, ?_⟩
  · exact ⟨⟨M, T, hM, hC, hT⟩, by norm_num, hrat, by norm_num, three_separated, by simp, by simp, by simp,
      oblique_sensible, rfl, rfl, .inr ⟨rfl, rfl⟩, by rw [oblique_radius0, oblique_radius1]; norm_num,
      by rw [oblique_len', oblique_radius0, oblique_radius1]; norm_num, by rw [oblique_len', oblique_radius1]; norm_num,
      by norm_num⟩
  · exact ⟨⟨M, T, hM, hC, hT⟩, by norm_num, hrat, by norm_num, three_separated, by simp, by simp, by simp,
      twin_sensible, rfl, rfl, .inl ⟨rfl, rfl⟩, by rw [twin_radius (by norm_num), twin_radius (by norm_num)]; norm_num,
      by rw [twin_len, twin_radius (by norm_num), twin_radius (by norm_num)]; norm_num,
      by rw [twin_len, twin_radius (by norm_num)]; norm_num, by norm_num⟩

/-- Forces, torques and a shear, given for two spheres. -/
noncomputable def twinInp : Inputs where
  Fa := [num3 ![0, 0, -1], num3 ![1, 2, 3]]
  Ta := [num3 ![1, 0, 0], num3 ![0, 4, 0]]
  Sa := [num33 ![![0, 1, 0], ![1, 0, 0], ![0, 0, 0]], num33 ![![0, 1, 0], ![1, 0, 0], ![0, 0, 0]]]
  Fb := []
  DFb := []
  Ua := [blank, blank]
  Ea := [num33 ![![0, 0, 1], ![0, 0, 0], ![1, 0, 0]], num33 ![![0, 0, 1], ![0, 0, 0], ![1, 0, 0]]]
  Ub := []
  HalfDUb := []

theorem twinInp_traceless : Traceless twinInp := by
  constructor <;> intro m hm <;> simp only [twinInp, List.mem_cons, List.not_mem_nil, or_false, or_self] at hm <;>
    obtain rfl := num33_inj hm <;> refine ⟨fun i j => ?_, ?_⟩ <;>
    first | (fin_cases i <;> fin_cases j <;> simp; done) | simp

theorem twinInp_complete : Complete .fte 2 0 twinInp := by
  simp only [Complete, twinInp, List.mem_cons, List.not_mem_nil, or_false, forall_eq_or_imp, forall_eq, List.length_cons,
    List.length_nil]
  exact ⟨⟨given_num3 _, given_num3 _⟩, ⟨given_num3 _, given_num3 _⟩, ⟨by omega, given_num33 _, given_num33 _⟩,
    fun _ h => h.elim, fun _ h => h.elim⟩

/-- Spheres of radius 6 and 3 in a fluid of viscosity 7, and two spheres of radius 3, all the way from the two-sphere
program to the motions. -/
example : ∃ run T' R R' C C' o o', SolvesMobility twinZ (run (1 / 2) 5000) ∧ SolvesMobility twinZ (run 1 5000) ∧
    Chain run [4000] [5000] [1 / 2, 1] T' (1 / 2) 5000 obliqueP 1 0 3000 ∧
    generate_grand_resistance_matrix T' obliqueP (NDMat.zeros 0 0) true 3000 false false 7 true = some (R, C) ∧
    solveForm .fte false 2 0 R twinInp = some o ∧ Echo .fte 2 0 twinInp o ∧
    MovesLike twinZ 7 6 (axis obliqueP 1 0) 1 0 o ∧
    generate_grand_resistance_matrix T' twinP (NDMat.zeros 0 0) true 3000 false false 7 true = some (R', C') ∧
    solveForm .fte false 2 0 R' twinInp = some o' ∧ MovesLike twinZ 7 3 (axis twinP 0 1) 0 1 o' := by
  obtain ⟨run, T', h1, h2, c1, c2⟩ := twin_chain
  have k0 : (0 : ℝ) < 3000 := by norm_num
  have m0 : (0 : ℝ) < 7 := by norm_num
  have hsz : Sized 2 0 twinInp := ⟨rfl, rfl, rfl, rfl, rfl, rfl, rfl, rfl⟩
  obtain ⟨R, C, hR, -, hs⟩ := C73_solvable c1 k0 h1 twinZ_balanced (fun _ => twinZ_exchange) twinZ_dissipates m0 true
    (NDMat.zeros 0 0)
  obtain ⟨o, ho⟩ := hs .fte twinInp (by decide) hsz twinInp_complete
  obtain ⟨R', C', hR', -, hs'⟩ := C73_solvable c2 k0 h2 twinZ_balanced (fun _ => twinZ_exchange) twinZ_dissipates m0 true
    (NDMat.zeros 0 0)
  obtain ⟨o', ho'⟩ := hs' .fte twinInp (by decide) hsz twinInp_complete
  have a := C73_solver c1 k0 h1 twinZ_balanced (fun _ => twinZ_exchange) m0 hR (by decide) hsz twinInp_traceless ho
  have b := C73_solver c2 k0 h2 twinZ_balanced (fun _ => twinZ_exchange) m0 hR' (by decide) hsz twinInp_traceless ho'
  rw [oblique_radius1] at a
  rw [twin_radius (by norm_num)] at b
  exact ⟨run, T', R, R', C, C', o, o', h1, h2, c1, hR, ho, a.1, a.2, hR', ho', b.2⟩

end SD
