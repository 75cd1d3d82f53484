import Verif.Lemmas.NearSystem
import Verif.Props.Condense
import Verif.Props.FarField

/-!
# C11 (resistance), C18 (near field), C20-C23: the near-field resistance matrix
-/

set_option autoImplicit false

namespace SD

open Spec

/-- A table with the size ratios of `demoP`, and values that differ from each other. -/
noncomputable def demoT : ScalarTable where
  sDash := [2, 3, 5]
  lam := [1 / 4, 1 / 2, 1, 2, 4]
  raw := fun k g n l => k + 2 * g - 3 * n + l

theorem demoT_tabulated (k : ℝ) : Tabulated demoT.lam demoP k := by
  intro x hx y hy _
  have hx' : x < 4 := hx
  have hy' : y < 4 := hy
  refine ⟨radius demoP y / radius demoP x, ?_, by simp; positivity⟩
  interval_cases x <;> interval_cases y <;> norm_num [radius, demoP, demoT]

/-! ## C23 -/

/-- **C23**. What the neighbour search lists: the pairs `i ≤ j` closer than twice the cutoff factor (in
units of the mean radius), with the scaled displacement from `i` to `j`, the scaled distance and the
size ratio; each pair once, in row order; each particle paired with itself. -/
theorem C23_neighbours (n : ℕ) (pos : ℕ → Fin 3 → ℝ) (size : ℕ → ℝ) (k : ℝ) :
    (∀ p ∈ close_particles n pos size k,
      p.i ≤ p.j ∧ p.j < n ∧ p.dist < 2 * k ∧
      p.dist = len (fun m => pos p.j m - pos p.i m) / ((size p.i + size p.j) / 2) ∧
      (∀ m, p.disp m = (pos p.j m - pos p.i m) / ((size p.i + size p.j) / 2)) ∧
      p.ratio = size p.j / size p.i) ∧
    (∀ i j, i ≤ j → j < n → len (fun m => pos j m - pos i m) / ((size i + size j) / 2) < 2 * k →
      ∃ p ∈ close_particles n pos size k, p.i = i ∧ p.j = j) ∧
    (close_particles n pos size k).Pairwise (fun p q => p.i < q.i ∨ (p.i = q.i ∧ p.j < q.j)) ∧
    (0 < k → ∀ i < n, ∃ p ∈ close_particles n pos size k, p.i = i ∧ p.j = i) := by
  refine ⟨fun p hp => ?_, fun i j hij hj h => ?_, close_sorted n pos size k, fun hk i hi => ?_⟩
  · obtain ⟨h1, h2, h3, h4, h5, h6⟩ := close_mem.mp hp
    refine ⟨h1, h2, by rw [h5]; exact h3, by rw [h5, distance_eq], fun m => ?_, h6⟩
    rw [h4]
    dsimp only
    rw [div_div_eq_mul_div, mul_comm]
  · exact ⟨closePair pos size i j, closePair_mem hij hj (by rw [distance_eq]; exact h), rfl, rfl⟩
  · refine ⟨closePair pos size i i, closePair_mem le_rfl hi ?_, rfl, rfl⟩
    rw [distance_eq]
    simp only [sub_self]
    rw [show len (fun _ => (0 : ℝ)) = 0 from len_zero]
    simpa using hk

/-- The two spheres of the example are listed as neighbours for a cutoff factor of 2. -/
example : ∃ p ∈ close_particles 4 demoP.beadPos demoP.beadSize 2, p.i = 0 ∧ p.j = 1 := by
  refine (C23_neighbours 4 demoP.beadPos demoP.beadSize 2).2.1 0 1 (by decide) (by decide) ?_
  rw [beadPos_eq, beadSize_eq]
  have : (fun m => centre demoP 1 m - centre demoP 0 m) = ![4, 0, 0] := by
    funext m; fin_cases m <;> simp [centre, demoP]
  rw [this]
  have hl : len ![4, 0, 0] = 4 := by
    unfold len
    rw [show ∑ i, (![4, 0, 0] : Fin 3 → ℝ) i ^ 2 = 4 ^ 2 by simp [Fin.sum_univ_three],
      Real.sqrt_sq (by norm_num)]
  rw [hl]
  norm_num [radius, demoP]

/-! ## C22 -/

/-- **C22** (interpolation). For strictly increasing nodes: the tabulated value at a node, the straight line
between neighbouring nodes, the first value at or below the first node and the last one at or above
the last node. -/
theorem C22_interp {xs : List ℝ} (hx : xs.Pairwise (· < ·)) (hne : xs ≠ []) (f : ℕ → ℝ) :
    (∀ k < xs.length, npInterp (xs.getD k 0) xs f = f k) ∧
    (∀ k x, k + 1 < xs.length → xs.getD k 0 ≤ x → x ≤ xs.getD (k + 1) 0 →
      npInterp x xs f
        = f k + (f (k + 1) - f k) * ((x - xs.getD k 0) / (xs.getD (k + 1) 0 - xs.getD k 0)) ∧
      min (f k) (f (k + 1)) ≤ npInterp x xs f ∧ npInterp x xs f ≤ max (f k) (f (k + 1))) ∧
    (∀ x, x ≤ xs.getD 0 0 → npInterp x xs f = f 0) ∧
    (∀ x, xs.getD (xs.length - 1) 0 ≤ x → npInterp x xs f = f (xs.length - 1)) := by
  have hlen : 0 < xs.length := List.length_pos_iff.mpr hne
  have g : ∀ i (h : i < xs.length), xs.getD i 0 = xs[i] := fun i h => by
    rw [List.getD_eq_getElem?_getD, List.getElem?_eq_getElem h]; rfl
  have mono : ∀ k, k + 1 < xs.length → xs.getD k 0 < xs.getD (k + 1) 0 := by
    intro k hk
    rw [g k (by omega), g (k + 1) hk]
    exact List.pairwise_iff_getElem.mp hx k (k + 1) (by omega) hk (by omega)
  refine ⟨fun k hk => ?_, fun k x hk h1 h2 => ?_, fun x h => interp_left hx hne f h,
    fun x h => interp_right hx hne f h⟩
  · by_cases hk1 : k + 1 < xs.length
    · rw [interp_inside hx f hk1 le_rfl (mono k hk1).le]; simp
    · have : k = xs.length - 1 := by omega
      subst this
      exact interp_right hx hne f le_rfl
  · have e := interp_inside hx f hk h1 h2
    have hg := mono k hk
    have t0 : 0 ≤ (x - xs.getD k 0) / (xs.getD (k + 1) 0 - xs.getD k 0) :=
      div_nonneg (by linarith) (by linarith)
    have t1 : (x - xs.getD k 0) / (xs.getD (k + 1) 0 - xs.getD k 0) ≤ 1 := by
      rw [div_le_one (by linarith)]; linarith
    refine ⟨e, ?_, ?_⟩
    · rw [e]
      generalize (x - xs.getD k 0) / (xs.getD (k + 1) 0 - xs.getD k 0) = t at *
      rcases le_total (f k) (f (k + 1)) with h | h
      · rw [min_eq_left h]; nlinarith
      · rw [min_eq_right h]; nlinarith
    · rw [e]
      generalize (x - xs.getD k 0) / (xs.getD (k + 1) 0 - xs.getD k 0) = t at *
      rcases le_total (f k) (f (k + 1)) with h | h
      · rw [max_eq_right h]; nlinarith
      · rw [max_eq_left h]; nlinarith

/-- **C22** (size ratio). The column of the table that is read is the first one whose ratio agrees with the
given one within the tolerance; the lookup fails only if there is none. -/
theorem C22_ratio (T : ScalarTable) (lam : ℝ) :
    (∀ l, lamIndex T lam = some l ↔ ∃ h : l < T.lam.length,
      |T.lam[l] - lam| ≤ 1 / 10 ^ 8 + 1 / 10 ^ 5 * |lam| ∧
      ∀ m (hm : m < l), ¬ |T.lam[m] - lam| ≤ 1 / 10 ^ 8 + 1 / 10 ^ 5 * |lam|) ∧
    (lamIndex T lam = none ↔ ∀ t ∈ T.lam, ¬ |t - lam| ≤ 1 / 10 ^ 8 + 1 / 10 ^ 5 * |lam|) := by
  constructor
  · intro l
    unfold lamIndex
    rw [List.findIdx?_eq_some_iff_getElem]
    simp [isclose]
  · unfold lamIndex
    rw [List.findIdx?_eq_none_iff]
    simp [isclose]

example : npInterp 4 [2, 3, 5] (fun n => 10 * n) = 15 := by
  have h := ((C22_interp (xs := [2, 3, 5]) (by simp; norm_num) (by simp) (fun n => 10 * n)).2.1 1 4
    (by simp) (by simp; norm_num) (by simp; norm_num)).1
  rw [h]; norm_num
example : lamIndex demoT 2 = some 3 := by
  refine ((C22_ratio demoT 2).1 3).mpr ⟨by simp [demoT], by simp [demoT]; positivity, ?_⟩
  intro m hm
  interval_cases m <;> norm_num [demoT, abs_of_pos, abs_of_neg]

/-! ## C21 -/

theorem power_five {X Y : Fin 3 → Fin 3 → ℝ} (hX : SymTraceless X) (hY : SymTraceless Y) :
    ∑ q, five X q * five Y q = ∑ k, ∑ m, X k m * Y k m := by
  have := C02_condensed_power X Y hX hY
  rwa [condenseOne_eq, condenseOne_eq] at this

theorem five_sum {n : ℕ} (X : Fin n → Fin 3 → Fin 3 → ℝ) (p : Fin 5) :
    five (fun i j => ∑ q, X q i j) p = ∑ q, five (X q) p := by
  fin_cases p <;> simp [five, Finset.mul_sum, Finset.sum_add_distrib]

section
variable (T : ScalarTable) (g : ℕ) {d : Fin 3 → ℝ} (l : ℕ) (s : ℝ) (hd : dotp d d = 1)
include hd

/-- **C21** (symmetries), for any table. The index pairs that are condensed are symmetric and traceless; the
force-velocity and torque-rotation tensors are symmetric, the torque-velocity one antisymmetric, and the
stresslet-strain one symmetric under exchange of the pairs. -/
theorem C21_symmetries :
    (∀ i j, Af T g d l s i j = Af T g d l s j i) ∧
    (∀ i j, Bf T g d l s i j = -Bf T g d l s j i) ∧
    (∀ i j, Cf T g d l s i j = Cf T g d l s j i) ∧
    (∀ k, SymTraceless fun i j => Gf T g d l s i j k) ∧
    (∀ k, SymTraceless fun i j => Hf T g d l s i j k) ∧
    (∀ i j, SymTraceless (Mf T g d l s i j)) ∧
    (∀ i j k m, Mf T g d l s i j k m = Mf T g d l s k m i j) := by
  have k1 : ∀ x y, kron x y = kron y x := fun x y => by simp only [kron, eq_comm]
  refine ⟨fun i j => ?_, fun i j => ?_, fun i j => ?_, fun k => ⟨fun i j => ?_, ?_⟩,
    fun k => ⟨fun i j => ?_, ?_⟩, Mf_symTraceless T g d l s hd, fun i j k m => ?_⟩
  · simp only [Af, L1, L2]; rw [k1 j i]; ring
  · simp only [Bf]
    have : L3 d i j = -L3 d j i := by
      fin_cases i <;> fin_cases j <;> simp [L3, levi, Fin.sum_univ_three]
    rw [this]; ring
  · simp only [Cf, L1, L2]; rw [k1 j i]; ring
  · simp only [Gf, L4, L5]; rw [k1 j i]; ring
  · have key : Gf T g d l s 0 0 k + Gf T g d l s 1 1 k + Gf T g d l s 2 2 k
        = (XYZ T 5 g s l * d k - 2 * XYZ T 6 g s l * d k) * (dotp d d - 1) := by
      simp only [Gf, L4, L5, dotp]
      fin_cases k <;> simp [kron] <;> ring
    rw [key, hd]; ring
  · simp only [Hf, L6_cross]; ring
  · simp only [Hf, L6_cross]
    fin_cases k <;> simp [cross, unit, dlt] <;> ring
  · simp only [Mf, L7, L8, L9]
    rw [k1 k i, k1 m j, k1 m i, k1 k j]; ring

/-- **C21** (condensed blocks). Acting with the condensed blocks on the five components of a symmetric
traceless rate of strain is acting with the full tensors on the matrix. -/
theorem C21_condensed {E : Fin 3 → Fin 3 → ℝ} (hE : SymTraceless E) :
    (∀ p, ∑ q, condense55 (Mf T g d l s) p q * five E q
      = five (fun i j => ∑ k, ∑ m, Mf T g d l s i j k m * E k m) p) ∧
    (∀ i, ∑ q, con_Gf_row T g d l s i q * five E q = ∑ j, ∑ k, Gf T g d l s j k i * E j k) ∧
    (∀ i, ∑ q, con_Hf_row T g d l s i q * five E q = ∑ j, ∑ k, Hf T g d l s j k i * E j k) ∧
    (∀ (U : Fin 3 → ℝ) p, ∑ i, condense53 (fun j i k => Gf T g d l s i k j) p i * U i
      = five (fun j k => ∑ i, Gf T g d l s j k i * U i) p) := by
  obtain ⟨-, -, -, hG, hH, hM, -⟩ := C21_symmetries T g l s hd
  refine ⟨fun p => ?_, fun i => ?_, fun i => ?_, fun U p => ?_⟩
  · have e : ∀ i j, ∑ k, ∑ m, Mf T g d l s i j k m * E k m
        = ∑ q, five (Mf T g d l s i j) q * five E q := fun i j => (power_five (hM i j) hE).symm
    simp only [e]
    rw [five_sum]
    refine Finset.sum_congr rfl fun q _ => ?_
    rw [condense55_five, five_mul']
  · rw [con_Gf_five]; exact power_five (hG i) hE
  · rw [con_Hf_five]; exact power_five (hH i) hE
  · rw [five_sum]
    refine Finset.sum_congr rfl fun i _ => ?_
    rw [condense53_five, five_mul']

end

example := C21_condensed demoT 1 2 2.5 (d := ![3 / 5, 0, -4 / 5]) (by simp only [dotp, Matrix.cons_val]; norm_num) demoS_ok

/-! ## C20 -/

/-- **C20** (entries). Every entry of the near-field matrix, in bead coordinates and units of the viscosity:
a bead's own block is the sum over its neighbours, each once, and the block of two beads is the pair
interaction if they are neighbours and zero otherwise (also if bead-bead interactions are switched off
and both belong to dumbbells). The matrix is symmetric. -/
theorem C20_entry {T : ScalarTable} {P : PosData} {k : ℝ} (hP : Sensible P) (hk : 0 < k)
    (hT : Tabulated T.lam P k) (bb : Bool) :
    ∃ M, generate_R2Bexact_loop T (NDMat.zeros (side P) (side P)) P.Ns P.Nd P.beadSize bb
        (close_particles (beads P) P.beadPos P.beadSize k) = some M ∧
      (∀ i j, M.get i j = M.get j i) ∧
      ∀ x c1 y c2, HasRow P.Ns P.Nd x c1 → HasRow P.Ns P.Nd y c2 →
        M.get (row P.Ns x c1) (row P.Ns y c2)
        = systemNear P.Ns (beads P) bb (radius P) (tableScal T) (openLink k (centre P) (radius P))
            x c1 y c2 := by
  obtain ⟨M, h1, -, -, h4, h5⟩ := near_entry hP hk hT bb
  exact ⟨M, h1, h4, h5⟩

/-- **C20** (symmetric), for the matrix that is returned: in dumbbell coordinates and with viscosity. -/
theorem C20_symmetric {T : ScalarTable} {P : PosData} {k : ℝ} (hP : Sensible P) (hk : 0 < k)
    (hT : Tabulated T.lam P k) (mu : ℝ) (bb : Bool) :
    ∃ R, generate_R2Bexact T P k mu bb = some R ∧ R.rows = side P ∧ R.cols = side P ∧
      ∀ i j, R.get i j = R.get j i := by
  obtain ⟨M, h1, h2, h3, h4, -⟩ := near_entry hP hk hT bb
  obtain ⟨R, e1, e2, e3, e4, -⟩ := R2B_mulVec (mu := mu) h1 ⟨h2, h3⟩
  exact ⟨R, e1, e2, e3, e4 h4⟩

/-- **C20** (local). Two beads not closer than the cutoff have no near-field coupling. -/
theorem C20_local {T : ScalarTable} {P : PosData} {k : ℝ} (hP : Sensible P) (hk : 0 < k)
    (hT : Tabulated T.lam P k) (bb : Bool) {M : NDMat}
    (hM : generate_R2Bexact_loop T (NDMat.zeros (side P) (side P)) P.Ns P.Nd P.beadSize bb
        (close_particles (beads P) P.beadPos P.beadSize k) = some M) {x y : ℕ} {c1 c2 : Comp}
    (hx : HasRow P.Ns P.Nd x c1) (hy : HasRow P.Ns P.Nd y c2) (hxy : x ≠ y)
    (hfar : 2 * k ≤ len (fun i => centre P y i - centre P x i) / ((radius P x + radius P y) / 2)) :
    M.get (row P.Ns x c1) (row P.Ns y c2) = 0 := by
  obtain ⟨M', h1, -, h3⟩ := C20_entry hP hk hT bb
  rw [hM] at h1
  obtain rfl : M = M' := by simpa using h1
  rw [h3 x c1 y c2 hx hy]
  unfold systemNear openLink
  dsimp only
  rw [if_neg hxy, if_neg (not_lt.mpr hfar)]
  simp

/-- **C20** (complete). A bead's own block is the sum over exactly the other beads within the cutoff, with
the unit vector pointing to that bead. -/
theorem C20_self {T : ScalarTable} {P : PosData} {k : ℝ} (hP : Sensible P) (hk : 0 < k)
    (hT : Tabulated T.lam P k) (bb : Bool) {M : NDMat}
    (hM : generate_R2Bexact_loop T (NDMat.zeros (side P) (side P)) P.Ns P.Nd P.beadSize bb
        (close_particles (beads P) P.beadPos P.beadSize k) = some M) {x : ℕ} {c1 c2 : Comp}
    (hx : HasRow P.Ns P.Nd x c1) (hy : HasRow P.Ns P.Nd x c2) :
    M.get (row P.Ns x c1) (row P.Ns x c2) = ∑ z ∈ (Finset.range (beads P)).erase x,
      let r : Fin 3 → ℝ := fun i => centre P z i - centre P x i
      let s := len r / ((radius P x + radius P z) / 2)
      if s < 2 * k then
        nearSelf (tableScal T 0 (radius P z / radius P x) s) (radius P x) (fun i => r i / len r) c1 c2
      else 0 := by
  obtain ⟨M', h1, -, h3⟩ := C20_entry hP hk hT bb
  rw [hM] at h1
  obtain rfl : M = M' := by simpa using h1
  rw [h3 x c1 x c2 hx hy]
  have hxn : x ∈ Finset.range (beads P) := Finset.mem_range.mpr (owns_lt (owns_kind hx))
  unfold systemNear
  rw [if_pos rfl, ← Finset.add_sum_erase _ _ hxn, if_pos rfl, zero_add]
  refine Finset.sum_congr rfl fun z hz => ?_
  rw [if_neg (Finset.ne_of_mem_erase hz)]
  unfold openLink
  dsimp only
  split_ifs <;> rfl

/-- **C20** (missing ratio). If the size ratio of two neighbours is not in the table, no matrix is
returned: the code reads outside an array. -/
theorem C20_missing_ratio {T : ScalarTable} {P : PosData} {k : ℝ} (bb : Bool) (mu : ℝ) {x y : ℕ}
    (hx : x < beads P) (hy : y < beads P) (hxy : x ≠ y)
    (hl : len (fun i => centre P y i - centre P x i) / ((radius P x + radius P y) / 2) < 2 * k)
    (hm : ∀ t ∈ T.lam,
      ¬ |t - radius P y / radius P x| ≤ 1 / 10 ^ 8 + 1 / 10 ^ 5 * |radius P y / radius P x|) :
    generate_R2Bexact T P k mu bb = none := by
  refine near_missing bb mu hx hy hxy ?_ hm
  unfold openLink
  dsimp only
  rw [if_pos hl]
  simp

example := C20_entry demoP_sensible (k := 2) (by norm_num) (demoT_tabulated 2) true
example := C20_symmetric demoP_sensible (k := 2) (by norm_num) (demoT_tabulated 2) 3 false

theorem len_axis {r : Fin 3 → ℝ} {c : ℝ} (hc : 0 ≤ c) (h : ∑ i, r i ^ 2 = c ^ 2) : len r = c := by
  unfold len; rw [h, Real.sqrt_sq hc]

/-- The first sphere and the first dumbbell bead of the example are not coupled at cutoff factor 2. -/
example {M : NDMat} (hM : generate_R2Bexact_loop demoT (NDMat.zeros (side demoP) (side demoP)) demoP.Ns
      demoP.Nd demoP.beadSize true (close_particles (beads demoP) demoP.beadPos demoP.beadSize 2) = some M) :
    M.get (row 2 0 (.t 1)) (row 2 2 (.f 2)) = 0 := by
  refine C20_local demoP_sensible (by norm_num) (demoT_tabulated 2) true hM (x := 0) (y := 2)
    (c1 := .t 1) (c2 := .f 2) (by simp [HasRow, demoP]) (by simp [HasRow, demoP]) (by decide) ?_
  have h5 : (5 : ℝ) ≤ len fun i => centre demoP 2 i - centre demoP 0 i := by
    refine le_trans ?_ (le_len _ 1)
    norm_num [centre, demoP]
  have hr : (radius demoP 0 + radius demoP 2) / 2 = 3 / 4 := by norm_num [radius, demoP]
  rw [hr, le_div_iff₀ (by norm_num)]
  linarith

/-- A dumbbell whose size ratio is missing: only the ratios of the spheres are tabulated. -/
theorem demo_missing : generate_R2Bexact { demoT with lam := [1 / 2, 1, 2] } demoP 5 1 true = none := by
  refine C20_missing_ratio true 1 (x := 1) (y := 2) (by simp [beads, demoP]) (by simp [beads, demoP])
    (by decide) ?_ ?_
  · have hr : (radius demoP 1 + radius demoP 2) / 2 = 5 / 4 := by norm_num [radius, demoP]
    have h : len (fun i => centre demoP 2 i - centre demoP 1 i) ≤ 10 := by
      unfold len
      rw [Real.sqrt_le_left (by norm_num)]
      norm_num [Fin.sum_univ_three, centre, demoP]
      simp only [Matrix.cons_val]; norm_num
    rw [hr, div_lt_iff₀ (by norm_num)]
    linarith
  · intro t ht
    have e : radius demoP 2 / radius demoP 1 = 1 / 4 := by norm_num [radius, demoP]
    rw [e]
    simp only [List.mem_cons, List.not_mem_nil, or_false] at ht
    rcases ht with rfl | rfl | rfl <;> norm_num [abs_of_pos]

/-! ## C11 (resistance) -/

/-- **C11** (resistance). The near-field matrix returned acts on dumbbell velocities
`((U1+U2)/2, (U2-U1)/2)` and gives dumbbell forces `(F1+F2, F2-F1)` exactly as the bead-coordinate
matrix times the viscosity acts on bead velocities and gives bead forces. -/
theorem C11_resistance {T : ScalarTable} {P : PosData} {k : ℝ} (hP : Sensible P) (hk : 0 < k)
    (hT : Tabulated T.lam P k) (mu : ℝ) (bb : Bool) :
    ∃ M R, generate_R2Bexact_loop T (NDMat.zeros (side P) (side P)) P.Ns P.Nd P.beadSize bb
        (close_particles (beads P) P.beadPos P.beadSize k) = some M ∧
      generate_R2Bexact T P k mu bb = some R ∧
      ∀ (w : ℕ → ℝ) (i : ℕ), i < side P →
        mulVec (side P) R.get (toDumbVel P.Ns P.Nd w) i
          = toDumbForce P.Ns P.Nd (fun j => mu * mulVec (side P) M.get w j) i := by
  obtain ⟨M, h1, h2, h3, h4, -⟩ := near_entry hP hk hT bb
  obtain ⟨R, e1, -, -, -, e4⟩ := R2B_mulVec (mu := mu) h1 ⟨h2, h3⟩
  exact ⟨M, R, h1, e1, e4⟩

/-- **C11** (inverse). Inverting the far-field matrix in dumbbell coordinates is transforming the inverse of
the bead-coordinate one: if `A` inverts the matrix returned and `B` the bead-coordinate matrix, then `A`
turns dumbbell velocities into dumbbell forces exactly as `B` turns bead velocities into bead
forces. -/
theorem C11_inverse (P : PosData) (mu : ℝ) (bb : Bool) (A B : ℕ → ℕ → ℝ)
    (hA : ∀ v : ℕ → ℝ, ∀ i < side P,
      mulVec (side P) A (mulVec (side P) (generate_Minfinity P mu bb).get v) i = v i)
    (hB : ∀ w : ℕ → ℝ, ∀ i < side P,
      mulVec (side P) (generate_Minfinity_loop (NDMat.zeros (side P) (side P)) P
        (1 / (8 * Real.pi * mu)) mu bb).get (mulVec (side P) B w) i = w i)
    (w : ℕ → ℝ) {i : ℕ} (hi : i < side P) :
    mulVec (side P) A (toDumbVel P.Ns P.Nd w) i = toDumbForce P.Ns P.Nd (mulVec (side P) B w) i := by
  rw [← hA (toDumbForce P.Ns P.Nd (mulVec (side P) B w)) i hi]
  refine mulVec_congr (fun j hj => ?_) i
  rw [C11_mobility P mu bb _ hj]
  exact toDumbVel_congr (fun j hj => (hB w j hj).symm) hj

/-- **C11** (power). The power is the same in both coordinates. -/
theorem C11_power (Ns Nd : ℕ) (f u : ℕ → ℝ) :
    ∑ i ∈ Finset.range (11 * Ns + 6 * Nd), toDumbForce Ns Nd f i * toDumbVel Ns Nd u i
      = ∑ i ∈ Finset.range (11 * Ns + 6 * Nd), f i * u i := by
  have split : ∀ g : ℕ → ℝ, ∑ i ∈ Finset.range (11 * Ns + 6 * Nd), g i
      = ∑ i ∈ Finset.range (11 * Ns), g i
        + ∑ i ∈ Finset.range (3 * Nd), (g (11 * Ns + i) + g (11 * Ns + 3 * Nd + i)) := by
    intro g
    rw [show 11 * Ns + 6 * Nd = 11 * Ns + 3 * Nd + 3 * Nd by omega, Finset.sum_range_add,
      Finset.sum_range_add, Finset.sum_add_distrib]
    ring
  rw [split, split]
  congr 1
  · refine Finset.sum_congr rfl fun i hi => ?_
    have := Finset.mem_range.mp hi
    unfold toDumbForce toDumbVel
    rw [if_pos this, if_pos this]
  · refine Finset.sum_congr rfl fun i hi => ?_
    have := Finset.mem_range.mp hi
    unfold toDumbForce toDumbVel
    rw [if_neg (by omega), if_pos (by omega), if_neg (by omega), if_pos (by omega), if_neg (by omega),
      if_neg (by omega), if_neg (by omega), if_neg (by omega),
      show 11 * Ns + i + 3 * Nd = 11 * Ns + 3 * Nd + i by omega,
      show 11 * Ns + 3 * Nd + i - 3 * Nd = 11 * Ns + i by omega]
    ring

example := C11_resistance demoP_sensible (k := 2) (by norm_num) (demoT_tabulated 2) 3 true
example : ∑ i ∈ Finset.range 6, toDumbForce 0 1 (fun i => i) i * toDumbVel 0 1 (fun i => 2 * i) i = 110 := by
  have := C11_power 0 1 (fun i => (i : ℝ)) (fun i => 2 * (i : ℝ))
  simp only [Nat.mul_zero, Nat.mul_one, Nat.zero_add] at this
  rw [this]
  norm_num [Finset.sum_range_succ]

/-! ## C18 (near field) -/

theorem nearDirect_recip {zab zba : Scalars} {a b : ℝ} (h : Reciprocal zab zba a b) {d : Fin 3 → ℝ}
    (hd : dotp d d = 1) {c1 c2 : Comp} (hc : order c1 = order c2) :
    nearDirect zab a d c1 c2 = nearDirect zba b (fun i => -d i) c2 c1 := by
  rw [nearDirect_neg_even _ _ _ (Or.inl hc.symm), nearDirect_symm _ _ hd _ _ hc.symm]
  have h1 := h.XA; have h2 := h.YA; have h3 := h.XC; have h4 := h.YC
  have h5 := h.XM; have h6 := h.YM; have h7 := h.ZM
  cases c1 <;> cases c2 <;> simp only [order] at hc <;> (try omega) <;> simp only [nearDirect]
  · rename_i i j
    unfold nearForce
    linear_combination 6 * Real.pi * (dotp d (unit j) * d i * (h1 - h2) + unit j i * h2)
  · rename_i i j
    simp only [nearTorque, cross_zero]
    linear_combination 8 * Real.pi * (dotp d (unit j) * d i * (h3 - h4) + unit j i * h4)
  · rename_i p q
    congr 1
    funext i j
    simp only [nearStress, cross_zero, Pi.zero_apply]
    have h0 : dotp d 0 = 0 := by simp [dotp]
    rw [h0]
    linear_combination 20 / 3 * Real.pi * (
      3 / 2 * ((d i * d j - dlt i j / 3) * dotp d (app (basis5 q) d)) * h5
      + (d i * app (basis5 q) d j + app (basis5 q) d i * d j
          - 2 * (d i * d j * dotp d (app (basis5 q) d))) * h6
      + (basis5 q i j - d i * app (basis5 q) d j - app (basis5 q) d i * d j
          + 1 / 2 * ((d i * d j + dlt i j) * dotp d (app (basis5 q) d))) * h7)

theorem nearPair_first {zab zba : Scalars} {a b : ℝ} (h : Reciprocal zab zba a b) {d : Fin 3 → ℝ}
    (hd : dotp d d = 1) (p q : Prop) [Decidable p] [Decidable q] (c1 c2 : Comp) :
    nearPair zab zba p a b d c1 c2 = nearPair zab zba q a b d c1 c2 := by
  unfold nearPair
  rcases lt_trichotomy (order c1) (order c2) with hc | hc | hc
  · rw [if_neg (by omega), if_neg (by omega)]
  · have e := nearDirect_recip h hd hc
    split_ifs <;> first | rfl | rw [e]
  · rw [if_pos (by omega), if_pos (by omega)]

/-- **C18** (near field, any table that satisfies the reciprocal theorem; it has to, see
`C18_needs_reciprocity`, and the tables of the project's scripts do, see `C18_grand`). If the tabulated scalars satisfy the reciprocal theorem for all pairs of
neighbours, renumbering spheres by a permutation `σ` and dumbbells by a permutation `τ` permutes the
rows and columns of the near-field matrix accordingly. -/
theorem C18_nearfield_of_reciprocal {T : ScalarTable} {P : PosData} {k : ℝ} (hP : Sensible P) (hk : 0 < k)
    (hT : Tabulated T.lam P k)
    (hrec : ∀ x < beads P, ∀ y < beads P, x ≠ y → ∀ s : ℝ,
      Reciprocal (tableScal T 1 (radius P y / radius P x) s) (tableScal T 1 (radius P x / radius P y) s)
        (radius P x) (radius P y))
    {σ τ : ℕ → ℕ} (hσ : ∀ i < P.Ns, σ i < P.Ns)
    (hτ : ∀ i < P.Nd, τ i < P.Nd) (iσ : ∀ i < P.Ns, ∀ j < P.Ns, σ i = σ j → i = j)
    (iτ : ∀ i < P.Nd, ∀ j < P.Nd, τ i = τ j → i = j) (bb : Bool) :
    ∃ M M', generate_R2Bexact_loop T (NDMat.zeros (side P) (side P)) P.Ns P.Nd P.beadSize bb
        (close_particles (beads P) P.beadPos P.beadSize k) = some M ∧
      generate_R2Bexact_loop T (NDMat.zeros (side P) (side P)) P.Ns P.Nd (relabel P σ τ).beadSize bb
        (close_particles (beads P) (relabel P σ τ).beadPos (relabel P σ τ).beadSize k) = some M' ∧
      ∀ x c1 y c2, HasRow P.Ns P.Nd x c1 → HasRow P.Ns P.Nd y c2 →
        M'.get (row P.Ns x c1) (row P.Ns y c2)
          = M.get (row P.Ns (beadMap P.Ns P.Nd σ τ x) c1) (row P.Ns (beadMap P.Ns P.Nd σ τ y) c2) := by
  have lt : ∀ u < beads P, beadMap P.Ns P.Nd σ τ u < beads P := fun u hu =>
    beadMap_lt (c := .f 0) hσ hτ hu
  have hl : ∀ u < beads P, ∀ v < beads P, openLink k (centre (relabel P σ τ)) (radius (relabel P σ τ)) u v
      = openLink k (centre P) (radius P) (beadMap P.Ns P.Nd σ τ u) (beadMap P.Ns P.Nd σ τ v) := by
    intro u hu v hv
    unfold openLink
    rw [(centre_relabel P hσ hτ hu).1, (centre_relabel P hσ hτ hu).2, (centre_relabel P hσ hτ hv).1,
      (centre_relabel P hσ hτ hv).2]
  have hT' : Tabulated T.lam (relabel P σ τ) k := by
    intro x hx y hy h
    rw [(centre_relabel P hσ hτ hx).2, (centre_relabel P hσ hτ hy).2]
    refine hT _ (lt x hx) _ (lt y hy) ?_
    rcases h with rfl | h
    · exact Or.inl rfl
    · right; rwa [← hl x hx y hy]
  obtain ⟨M, e1, -, e2⟩ := C20_entry hP hk hT bb
  obtain ⟨M', e1', -, e2'⟩ := C20_entry (relabel_sensible hP hσ hτ iσ iτ) hk hT' bb
  refine ⟨M, M', e1, e1', ?_⟩
  intro x c1 y c2 hx hy
  have hxn : x < beads P := owns_lt (owns_kind hx)
  have hyn : y < beads P := owns_lt (owns_kind hy)
  rw [e2 _ _ _ _ (beadMap_lt hσ hτ hx) (beadMap_lt hσ hτ hy)]
  refine Eq.trans (e2' x c1 y c2 hx hy) ?_
  have hb : beads (relabel P σ τ) = beads P := rfl
  rw [hb]
  have rx := (centre_relabel P hσ hτ hxn).2
  have ry := (centre_relabel P hσ hτ hyn).2
  unfold systemNear
  by_cases e : x = y
  · subst e
    rw [if_pos rfl, if_pos rfl]
    have maps : Set.MapsTo (beadMap P.Ns P.Nd σ τ) (Finset.range (beads P)) (Finset.range (beads P)) :=
      fun z hz => Finset.mem_coe.mpr (Finset.mem_range.mpr (lt z (Finset.mem_range.mp hz)))
    have inj : Set.InjOn (beadMap P.Ns P.Nd σ τ) (Finset.range (beads P)) := fun u hu v hv h =>
      beadMap_inj hσ hτ iσ iτ (Finset.mem_range.mp hu) (Finset.mem_range.mp hv) h
    refine Finset.sum_nbij (beadMap P.Ns P.Nd σ τ) maps inj
      (Finset.surjOn_of_injOn_of_card_le _ maps inj le_rfl) ?_
    · intro z hz
      have hz := Finset.mem_range.mp hz
      have rz := (centre_relabel P hσ hτ hz).2
      rw [hl x hxn z hz, rx, rz]
      refine if_congr ?_ rfl rfl
      exact ⟨fun h => by rw [h], fun h => beadMap_inj hσ hτ iσ iτ hz hxn h⟩
  · have e' : beadMap P.Ns P.Nd σ τ x ≠ beadMap P.Ns P.Nd σ τ y := fun h =>
      e (beadMap_inj hσ hτ iσ iτ hxn hyn h)
    have hsx := beadMap_sphere (Nd := P.Nd) (τ := τ) hσ x
    have hsy := beadMap_sphere (Nd := P.Nd) (τ := τ) hσ y
    rw [if_neg e, if_neg e', rx, ry, hl x hxn y hyn]
    have hns : (relabel P σ τ).Ns = P.Ns := rfl
    rw [hns]
    refine if_congr (by rw [hsx, hsy]) rfl ?_
    have hmut := (near_links hP hk).mutual
    rw [beadPos_eq, beadSize_eq] at hmut
    rcases hmut _ (lt x hxn) _ (lt y hyn) e' with ⟨h, -⟩ | ⟨d, s, hd, h, -⟩
    · rw [h]
    · rw [h]
      exact nearPair_first (hrec _ (lt x hxn) _ (lt y hyn) e' s) hd _ _ c1 c2

theorem npInterp_smul (x : ℝ) (xs : List ℝ) (c : ℝ) (f : ℕ → ℝ) :
    npInterp x xs (fun n => c * f n) = c * npInterp x xs f := by
  unfold npInterp
  dsimp only
  split_ifs <;> ring

/-- A table that satisfies the reciprocal theorem. -/
noncomputable def recipT : ScalarTable where
  sDash := [2, 3, 5]
  lam := [1 / 4, 1 / 2, 1, 2, 4]
  raw := fun k g n l =>
    (if k ≤ 1 then 1 + demoT.lam.getD l 0 else (1 + demoT.lam.getD l 0) ^ 3) * (k + g + n : ℝ)

theorem recipT_lam {l : ℕ} (hl : l < 5) : lamIndex recipT (recipT.lam.getD l 0) = some l := by
  refine ((C22_ratio recipT _).1 l).mpr ⟨hl, ?_, ?_⟩
  · interval_cases l <;> simp [recipT] <;> positivity
  · intro m hm
    interval_cases l <;> interval_cases m <;> norm_num [recipT, abs_of_pos, abs_of_neg]

theorem recipT_recip (g : ℕ) (s : ℝ) (x : ℕ) (hx : x < beads demoP) (y : ℕ) (hy : y < beads demoP) :
    Reciprocal (tableScal recipT g (radius demoP y / radius demoP x) s)
      (tableScal recipT g (radius demoP x / radius demoP y) s) (radius demoP x) (radius demoP y) := by
  have key : ∀ l m, l < 5 → m < 5 → ∀ a b : ℝ, b / a = recipT.lam.getD l 0 → a / b = recipT.lam.getD m 0 →
      a * (1 + recipT.lam.getD l 0) = b * (1 + recipT.lam.getD m 0) →
      Reciprocal (tableScal recipT g (b / a) s) (tableScal recipT g (a / b) s) a b := by
    intro l m hl hm a b e1 e2 e3
    have e4 : a ^ 3 * (1 + recipT.lam.getD l 0) ^ 3 = b ^ 3 * (1 + recipT.lam.getD m 0) ^ 3 := by
      rw [← mul_pow, e3, mul_pow]
    rw [e1, e2]
    unfold tableScal
    rw [recipT_lam hl, recipT_lam hm]
    have one : ∀ k l, k ≤ 1 → XYZ recipT k g s l
        = (1 + recipT.lam.getD l 0) * npInterp s recipT.sDash (fun n => (k + g + n : ℝ)) := fun k l hk => by
      rw [← npInterp_smul]; simp only [XYZ, recipT, demoT, if_pos hk]
    have three : ∀ k l, ¬ k ≤ 1 → XYZ recipT k g s l
        = (1 + recipT.lam.getD l 0) ^ 3 * npInterp s recipT.sDash (fun n => (k + g + n : ℝ)) :=
      fun k l hk => by
        rw [← npInterp_smul]; simp only [XYZ, recipT, demoT, if_neg hk]
    simp only [Option.getD_some]
    constructor <;> simp only [scalarsAt]
    · rw [one _ _ (by norm_num), one _ _ (by norm_num), ← mul_assoc, ← mul_assoc, e3]
    · rw [one _ _ (by norm_num), one _ _ (by norm_num), ← mul_assoc, ← mul_assoc, e3]
    all_goals rw [three _ _ (by norm_num), three _ _ (by norm_num), ← mul_assoc, ← mul_assoc, e4]
  have hx' : x < 4 := hx
  have hy' : y < 4 := hy
  have r0 : radius demoP 0 = 1 := by simp [radius, demoP]
  have r1 : radius demoP 1 = 2 := by simp [radius, demoP]
  have r2 : radius demoP 2 = 1 / 2 := by simp [radius, demoP]
  have r3 : radius demoP 3 = 1 / 2 := by simp [radius, demoP]
  interval_cases x <;> interval_cases y <;> simp only [r0, r1, r2, r3] <;>
    first
    | (refine key 2 2 (by decide) (by decide) _ _ ?_ ?_ ?_ <;> norm_num [recipT]; done)
    | (refine key 1 3 (by decide) (by decide) _ _ ?_ ?_ ?_ <;> norm_num [recipT]; done)
    | (refine key 3 1 (by decide) (by decide) _ _ ?_ ?_ ?_ <;> norm_num [recipT]; done)
    | (refine key 0 4 (by decide) (by decide) _ _ ?_ ?_ ?_ <;> norm_num [recipT]; done)
    | (refine key 4 0 (by decide) (by decide) _ _ ?_ ?_ ?_ <;> norm_num [recipT]; done)

/-- Exchanging the two spheres of the example. -/
example := C18_nearfield_of_reciprocal (T := recipT) demoP_sensible (k := 2) (by norm_num) (demoT_tabulated 2)
  (fun x hx y hy _ s => recipT_recip 1 s x hx y hy) (σ := fun i => 1 - i) (τ := id)
  (by simp only [demoP]; intros; omega) (by simp [demoP]) (by simp only [demoP]; intros; omega)
  (by simp) true

/-- The table whose scalars are all 1. -/
noncomputable def flatT : ScalarTable := { demoT with raw := fun _ _ _ _ => 1 }

/-- **C18** (reciprocity is needed). With a table that does not satisfy the reciprocal theorem,
exchanging two spheres changes their interaction. -/
theorem C18_needs_reciprocity :
    ∃ M M', generate_R2Bexact_loop flatT (NDMat.zeros (side demoP) (side demoP)) demoP.Ns demoP.Nd
        demoP.beadSize true (close_particles (beads demoP) demoP.beadPos demoP.beadSize 2) = some M ∧
      generate_R2Bexact_loop flatT (NDMat.zeros (side demoP) (side demoP)) demoP.Ns demoP.Nd
        (relabel demoP (fun i => 1 - i) id).beadSize true
        (close_particles (beads demoP) (relabel demoP (fun i => 1 - i) id).beadPos
          (relabel demoP (fun i => 1 - i) id).beadSize 2) = some M' ∧
      M'.get (row 2 0 (.f 1)) (row 2 1 (.f 1)) ≠ M.get (row 2 1 (.f 1)) (row 2 0 (.f 1)) := by
  set P' := relabel demoP (fun i => 1 - i) id with hP'
  have hs : Sensible P' := relabel_sensible demoP_sensible (by simp only [demoP]; intros; omega)
    (by simp [demoP]) (by simp only [demoP]; intros; omega) (by simp)
  have hT : Tabulated flatT.lam demoP 2 := demoT_tabulated 2
  have hT' : Tabulated flatT.lam P' 2 := by
    intro x hx y hy _
    have hx' : x < 4 := hx
    have hy' : y < 4 := hy
    refine ⟨radius P' y / radius P' x, ?_, by simp; positivity⟩
    interval_cases x <;> interval_cases y <;> norm_num [P', relabel, radius, demoP, flatT, demoT]
  obtain ⟨M, e1, -, e2⟩ := C20_entry demoP_sensible (by norm_num) hT true
  obtain ⟨M', e1', -, e2'⟩ := C20_entry hs (by norm_num) hT' true
  refine ⟨M, M', e1, e1', ?_⟩
  have a := e2 1 (.f 1) 0 (.f 1) (by simp [HasRow, demoP]) (by simp [HasRow, demoP])
  have b := e2' 0 (.f 1) 1 (.f 1) (by simp [HasRow, P', relabel, demoP]) (by simp [HasRow, P', relabel, demoP])
  have hf : ∀ g lam s, (tableScal flatT g lam s).YA = 1 := by
    intro g lam s
    simp [tableScal, scalarsAt, XYZ, npInterp, flatT]
  have la : openLink 2 (centre demoP) (radius demoP) 1 0 = some (![-1, 0, 0], 8 / 3) := by
    have e : (fun i => centre demoP 0 i - centre demoP 1 i) = ![-4, 0, 0] := by
      funext m; fin_cases m <;> simp [centre, demoP]
    have hr : (radius demoP 1 + radius demoP 0) / 2 = 3 / 2 := by norm_num [radius, demoP]
    unfold openLink
    rw [e, hr]
    dsimp only
    rw [len_axis (c := 4) (by norm_num) (by simp [Fin.sum_univ_three]), if_pos (by norm_num)]
    congr 2
    · funext m; fin_cases m <;> simp
    · norm_num
  have lb : openLink 2 (centre P') (radius P') 0 1 = some (![-1, 0, 0], 8 / 3) := by
    have e : (fun i => centre P' 1 i - centre P' 0 i) = ![-4, 0, 0] := by
      funext m; fin_cases m <;> simp [centre, P', relabel, demoP]
    have hr : (radius P' 0 + radius P' 1) / 2 = 3 / 2 := by norm_num [radius, P', relabel, demoP]
    unfold openLink
    rw [e, hr]
    dsimp only
    rw [len_axis (c := 4) (by norm_num) (by simp [Fin.sum_univ_three]), if_pos (by norm_num)]
    congr 2
    · funext m; fin_cases m <;> simp
    · norm_num
  have ra : radius demoP 0 = 1 := by simp [radius, demoP]
  have rb : radius P' 0 = 2 := by simp [radius, P', relabel, demoP]
  have a' : M.get (row 2 1 (.f 1)) (row 2 0 (.f 1)) = 6 * Real.pi := by
    refine Eq.trans a ?_
    unfold systemNear
    rw [la, ra]
    simp [nearPair, nearDirect, nearForce, order, hf, dotp, unit, dlt]
  have b' : M'.get (row 2 0 (.f 1)) (row 2 1 (.f 1)) = 12 * Real.pi := by
    refine Eq.trans b ?_
    unfold systemNear
    rw [lb, rb]
    simp [nearPair, nearDirect, nearForce, order, hf, dotp, unit, dlt]
    ring
  rw [a', b']
  have := Real.pi_pos
  intro h
  linarith

end SD
