import Verif.Lemmas.System

/-!
# C11-C14, C16, C18, C48: the far-field mobility matrix
-/

set_option autoImplicit false

namespace SD

open Spec

/-! ## A configuration used in the examples: two spheres of different sizes and a dumbbell -/

/-- Spheres of radii 1 and 2 at `(0,0,0)` and `(4,0,0)`, overlapping nothing, and a dumbbell with beads
of radius 1/2 at `(0,5,∓1)`. -/
noncomputable def demoP : PosData where
  Ns := 2
  Nd := 1
  sphereSize := fun i => if i = 0 then 1 else 2
  spherePos := fun i => if i = 0 then ![0, 0, 0] else ![4, 0, 0]
  dumbSize := fun _ => 1 / 2
  dumbPos := fun _ => ![0, 5, 0]
  dumbDx := fun _ => ![0, 0, 2]

theorem le_len (r : Fin 3 → ℝ) (i : Fin 3) : |r i| ≤ len r := by
  unfold len
  rw [← Real.sqrt_sq_eq_abs]
  exact Real.sqrt_le_sqrt (Finset.single_le_sum (f := fun i => r i ^ 2) (fun _ _ => sq_nonneg _)
    (Finset.mem_univ i))

theorem demoP_sensible : Sensible demoP := by
  constructor
  · intro x hx
    have hx' : x < 4 := hx
    interval_cases x <;> norm_num [radius, demoP]
  · intro x hx y hy e
    have hx' : x < 4 := hx
    have hy' : y < 4 := hy
    have big : ∀ (r : Fin 3 → ℝ) (i : Fin 3), (1 : ℝ) ≤ |r i| → (1 : ℝ) / 10 ^ 8 < len r :=
      fun r i h => lt_of_lt_of_le (lt_of_lt_of_le (by norm_num) h) (le_len r i)
    interval_cases x <;> interval_cases y <;> first
      | exact absurd rfl e
      | (refine big _ 0 ?_; norm_num [centre, demoP]; done)
      | (refine big _ 1 ?_; norm_num [centre, demoP]; done)
      | (refine big _ 2 ?_; norm_num [centre, demoP]; simp only [Matrix.cons_val]; norm_num; done)

/-! ## C48 -/

/-- **C48**. Every entry of the far-field mobility matrix in bead coordinates: for a bead's own block
Stokes' and Einstein's mobilities, and for two distinct beads exactly the motion Faxén's laws give one
of them in the multipole flow of the other one (at the separation of `sep`). Every row of the matrix
is the row of exactly one component of one bead. -/
theorem C48_entry {P : PosData} (hP : Sensible P) (mu : ℝ) (bb : Bool) {x y : ℕ} {c1 c2 : Comp}
    (hx : HasRow P.Ns P.Nd x c1) (hy : HasRow P.Ns P.Nd y c2) :
    (generate_Minfinity_loop (NDMat.zeros (side P) (side P)) P (1 / (8 * Real.pi * mu)) mu bb).get
      (row P.Ns x c1) (row P.Ns y c2)
    = systemMob P.Ns bb (centre P) (radius P) mu x c1 y c2 :=
  entry_of_sensible hP mu bb hx hy _ _

/-- **C48** (rows). The rows are numbered without gap or overlap. -/
theorem C48_rows (P : PosData) :
    (∀ i < side P, ∃ u c, HasRow P.Ns P.Nd u c ∧ row P.Ns u c = i) ∧
    (∀ u c, HasRow P.Ns P.Nd u c → row P.Ns u c < side P) ∧
    (∀ u c v d, HasRow P.Ns P.Nd u c → HasRow P.Ns P.Nd v d → row P.Ns u c = row P.Ns v d →
      u = v ∧ c = d) :=
  ⟨fun _ h => row_surj h, fun _ _ h => row_lt h, fun _ _ _ _ h h' e => row_inj h h' e⟩

/-- The stresslet of the second sphere moves the second bead of the dumbbell. -/
example : (generate_Minfinity_loop (NDMat.zeros (side demoP) (side demoP)) demoP
      (1 / (8 * Real.pi * 3)) 3 true).get (row 2 3 (.f 1)) (row 2 1 (.s 4))
    = 1 / (8 * Real.pi * 3) * pairMob (1 / 2) 2 (.f 1) (.s 4) (sep ![-4, 5, 1] (1 / 2) 2) := by
  have h := C48_entry demoP_sensible 3 true (x := 3) (y := 1) (c1 := .f 1) (c2 := .s 4)
    (by simp [HasRow, demoP]) (by simp [HasRow, demoP])
  have e : (fun i => centre demoP 3 i - centre demoP 1 i) = ![-4, 5, 1] := by
    funext i; fin_cases i <;> simp [centre, demoP]
  have e1 : radius demoP 3 = 1 / 2 := by simp [radius, demoP]
  have e2 : radius demoP 1 = 2 := by simp [radius, demoP]
  rw [show demoP.Ns = 2 from rfl] at h
  rw [h]
  unfold systemMob
  rw [if_neg (by decide), if_neg (by simp), e, e1, e2]

/-! ## C12 -/

/-- **C12** (symmetry), in bead coordinates and in the dumbbell coordinates that are returned. -/
theorem C12_symmetric (P : PosData) (mu : ℝ) (bb : Bool) (i j : ℕ) :
    (generate_Minfinity_loop (NDMat.zeros (side P) (side P)) P (1 / (8 * Real.pi * mu)) mu bb).get i j
      = (generate_Minfinity_loop (NDMat.zeros (side P) (side P)) P
          (1 / (8 * Real.pi * mu)) mu bb).get j i ∧
    (generate_Minfinity P mu bb).get i j = (generate_Minfinity P mu bb).get j i ∧
    (generate_Minfinity P mu bb).rows = side P ∧ (generate_Minfinity P mu bb).cols = side P := by
  refine ⟨loop_symm P _ mu bb _ i j, ?_⟩
  unfold generate_Minfinity
  dsimp only
  split_ifs
  · exact ⟨dot_dot_symm _ _ (11 * P.Ns + 6 * P.Nd) ⟨rfl, rfl⟩
      (loop_dims P _ mu bb (NDMat.zeros _ _)) (loop_symm P _ mu bb _) i j, rfl, rfl⟩
  · exact ⟨loop_symm P _ mu bb _ i j, loop_dims P _ mu bb _⟩

/-- **C12** (translation). Moving every particle by the same vector changes nothing. -/
theorem C12_translation (P : PosData) (t : Fin 3 → ℝ) (mu : ℝ) (bb : Bool) :
    generate_Minfinity (shift P t) mu bb = generate_Minfinity P mu bb := by
  apply Minfinity_congr
  · rfl
  · rfl
  · rfl
  · intro x y
    rw [beadPos_eq, beadPos_eq]
    have e : ∀ u, centre (shift P t) u = fun i => centre P u i + t i := by
      intro u; funext i
      show (if u < P.Ns then P.spherePos u i + t i
        else if u < P.Ns + P.Nd then P.dumbPos (u - P.Ns) i + t i - P.dumbDx (u - P.Ns) i / 2
        else P.dumbPos (u - (P.Ns + P.Nd)) i + t i + P.dumbDx (u - (P.Ns + P.Nd)) i / 2) = _
      simp only [centre]
      by_cases h1 : u < P.Ns
      · simp only [if_pos h1]
      · by_cases h2 : u < P.Ns + P.Nd
        · simp only [if_neg h1, if_pos h2]; ring
        · simp only [if_neg h1, if_neg h2]; ring
    rw [e, e]
    funext i
    simp

example : (shift demoP ![1, -2, 7]).spherePos 1 = ![5, -2, 7] := by
  funext i; fin_cases i <;> simp [shift, demoP]; norm_num

/-! ## C13 -/

/-- **C13** (reciprocity). The response of one sphere to a load on the other one is the transpose of the
response with the roles exchanged. -/
theorem C13_reciprocal {P : PosData} (hP : Sensible P) {x y : ℕ} (hx : x < beads P) (hy : y < beads P)
    (hxy : x ≠ y) (c1 c2 : Comp) :
    pairMob (radius P x) (radius P y) c1 c2
        (sep (fun i => centre P x i - centre P y i) (radius P x) (radius P y))
      = pairMob (radius P y) (radius P x) c2 c1
        (sep (fun i => centre P y i - centre P x i) (radius P y) (radius P x)) := by
  have h := (sep_ne (hP.radius_pos x hx) (hP.radius_pos y hy) (hP.apart x hx y hy hxy)).1
  rw [pairMob_recip h, ← sep_swap]
  congr 2
  funext i; simp

/-- **C13** (mirror blocks). Whatever the sizes and separation of two spheres `u < v` (also overlapping or
coincident, also equal sizes where the code copies with a sign), the velocity-torque,
velocity-stresslet and rotation-stresslet blocks stored for `v` due to `u` are the closed forms
evaluated with the two spheres exchanged. -/
theorem C13_mirror_blocks (P : PosData) (c mu : ℝ) (bb : Bool) (n m : ℕ) {u v : ℕ} (hu : u < P.Ns)
    (hv : v < P.Ns) (i : Fin 3) :
    let M := generate_Minfinity_loop (NDMat.zeros n m) P c mu bb
    let r := (minfRS (P.beadPos v - P.beadPos u) (P.beadSize v) (P.beadSize u)).1
    let s := (minfRS (P.beadPos v - P.beadPos u) (P.beadSize v) (P.beadSize u)).2
    (∀ j : Fin 3, M.get (3 * v + i) (3 * P.Ns + 3 * u + j)
      = M12 r s (P.beadSize v) (P.beadSize u) i j c mu) ∧
    (∀ q : Fin 5, M.get (3 * v + i) (6 * P.Ns + 5 * u + q)
      = con_M13_row r s (P.beadSize v) (P.beadSize u) i c mu q) ∧
    (∀ q : Fin 5, M.get (3 * P.Ns + 3 * v + i) (6 * P.Ns + 5 * u + q)
      = con_M23_row r s (P.beadSize v) (P.beadSize u) i c mu q) := by
  intro M r s
  have i3 : ∀ i : Fin 3, f3 (i : ℕ) = i := fun i => Fin.ofNat_val_eq_self i
  have i5 : ∀ i : Fin 5, f5 (i : ℕ) = i := fun i => Fin.ofNat_val_eq_self i
  have ov : ∀ k, k = Kind.F ∨ k = Kind.T ∨ k = Kind.S → owns P.Ns P.Nd k v := by
    rintro k (rfl | rfl | rfl) <;> exact hv
  have ou : ∀ k, k = Kind.F ∨ k = Kind.T ∨ k = Kind.S → owns P.Ns P.Nd k u := by
    rintro k (rfl | rfl | rfl) <;> exact hu
  refine ⟨fun j => ?_, fun q => ?_, fun q => ?_⟩
  · have h := minfLoop_get P c mu bb n m (kx := .F) (ky := .T) (ov _ (by simp)) (ou _ (by simp))
      i.2 j.2 (p := i) (q := j) trivial
    rw [if_pos (by trivial)] at h
    simp only [mVal, i3, base, mul_comm _ 3] at h
    show (generate_Minfinity_loop (NDMat.zeros n m) P c mu bb).get _ _ = _
    unfold generate_Minfinity_loop
    rw [symmetrise_upper _ (by omega)]
    exact h
  · have h := minfLoop_get P c mu bb n m (kx := .F) (ky := .S) (ov _ (by simp)) (ou _ (by simp))
      i.2 q.2 (p := i) (q := q) trivial
    rw [if_pos (by trivial)] at h
    simp only [mVal, i3, i5, base, mul_comm _ 3, mul_comm _ 5] at h
    show (generate_Minfinity_loop (NDMat.zeros n m) P c mu bb).get _ _ = _
    unfold generate_Minfinity_loop
    rw [symmetrise_upper _ (by omega)]
    exact h
  · have h := minfLoop_get P c mu bb n m (kx := .T) (ky := .S) (ov _ (by simp)) (ou _ (by simp))
      i.2 q.2 (p := i) (q := q) trivial
    rw [if_pos (by trivial)] at h
    simp only [mVal, i3, i5, base, mul_comm _ 3, mul_comm _ 5] at h
    show (generate_Minfinity_loop (NDMat.zeros n m) P c mu bb).get _ _ = _
    unfold generate_Minfinity_loop
    rw [symmetrise_upper _ (by omega)]
    exact h

example := C13_mirror_blocks demoP 1 1 true 28 28 (u := 0) (v := 1) (by simp [demoP])
  (by simp [demoP]) 2
example := C13_reciprocal demoP_sensible (x := 1) (y := 3) (by simp [beads, demoP])
  (by simp [beads, demoP]) (by decide) (.s 2) (.f 0)

/-! ## C14 -/

/-- **C14**. The closed forms are the derivatives they claim to be, at every non-zero displacement. -/
theorem C14_derivatives {r : Fin 3 → ℝ} (h : r ≠ 0) (i j k l : Fin 3) :
    pd l (oseen i j) r = D_J r (len r) l i j ∧
    pd k (pd l (oseen i j)) r = DD_J r (len r) k l i j ∧
    lap (oseen i j) r = Lap_J (r i) (r j) i j (len r) ∧
    pd k (lap (oseen i j)) r = DLap_J r (len r) k i j ∧
    pd l (fun r => rotletR r (len r) i j) r = D_R r (len r) l i j ∧
    lap (fun r => rotletR r (len r) i j) r = Lap_R r (len r) i j ∧
    pd l (fun r => tensorK r (len r) i j k) r = D_K r (len r) l i j k ∧
    lap (fun r => tensorK r (len r) i j k) r = Lap_K r (len r) i j k ∧
    pd l (lap fun r => tensorK r (len r) i j k) r = DLap_K r (len r) l i j k := by
  have sR : ∀ r, r ≠ 0 → rotletR r (len r) i j = flow 0 (.torque j) i r :=
    fun r hr => (flow_torque 0 j i hr).symm
  have sK : ∀ r, r ≠ 0 → tensorK r (len r) i j k = -1 * flow 0 (.stress j k) i r := by
    intro r hr; rw [flow_stress 0 j k i hr]; ring
  refine ⟨pd_oseen h l i j, pd_pd_oseen h k l i j, lap_oseen h i j, pd_lap_oseen h k i j, ?_, ?_, ?_,
    ?_, ?_⟩
  · rw [pd_congr (g := flow 0 (.torque j) i) sR h, pd_flow_torque 0 j i l h]
  · rw [lap_congr sR h, lap_flow_torque 0 j i h, Lap_R_zero]
  · rw [pd_congr (g := fun r => -1 * flow 0 (.stress j k) i r) sK h,
      pd_const_mul _ ((flow_stress_sm 0 j k i).diff h), pd_flow_stress 0 j k i l h]; ring
  · rw [lap_congr sK h, lap_const_mul _ (flow_stress_sm 0 j k i) h, lap_flow_stress 0 j k i h, Lap_K]
    ring
  · have e : ∀ r, r ≠ 0 → lap (fun r => tensorK r (len r) i j k) r = lap (pd i (oseen j k)) r := by
      intro r hr
      have sK' : ∀ r, r ≠ 0 → tensorK r (len r) i j k = -1 * flow 0 (.stress j k) i r := by
        intro r hr; rw [flow_stress 0 j k i hr]; ring
      rw [lap_congr sK' hr, lap_const_mul _ (flow_stress_sm 0 j k i) hr, lap_flow_stress 0 j k i hr,
        lap_pd (oseen_sm j k) i hr, pd_lap_oseen hr]
      ring
    rw [pd_congr (g := lap (pd i (oseen j k))) e h,
      pd_congr (g := pd i (lap (oseen j k))) (fun r hr => lap_pd (oseen_sm j k) i hr) h,
      pd_pd_lap_oseen h]

/-- **C14** (physics). The flow of a point force is incompressible and biharmonic. -/
theorem C14_stokes {r : Fin 3 → ℝ} (h : r ≠ 0) (j : Fin 3) :
    ∑ i, pd i (oseen i j) r = 0 ∧ ∀ i, lap (lap (oseen i j)) r = 0 :=
  ⟨oseen_div h j, fun i => lap_lap_oseen h i j⟩

example : (![1, -2, 3] : Fin 3 → ℝ) ≠ 0 := fun h => by simpa using congrFun h 0

/-! ## C16 -/

/-- **C16** (separation used). Two beads further apart than `1e-8` are used at their true displacement if
that is at least 2.001 average radii, and otherwise at exactly 2.001 average radii in the same
direction; so the distance used is the larger of the two. -/
theorem C16_separation {r : Fin 3 → ℝ} {a b : ℝ} (ha : 0 < a) (hb : 0 < b) (h : 1 / 10 ^ 8 < len r) :
    (2.001 ≤ len r / ((a + b) / 2) → (minfRS r a b).1 = r) ∧
    (len r / ((a + b) / 2) < 2.001 →
      ∀ i, (minfRS r a b).1 i = 2.001 * ((a + b) / 2) * (r i / len r)) ∧
    len (minfRS r a b).1 = max (len r) (2.001 * ((a + b) / 2)) ∧
    (minfRS r a b).2 = len (minfRS r a b).1 := by
  have h0 : (0 : ℝ) < 1 / 10 ^ 8 := by positivity
  obtain ⟨e1, e2⟩ := sep_spec ha hb h
  have hab : 0 < (a + b) / 2 := by positivity
  refine ⟨fun hs => ?_, fun hs i => ?_, ?_, ?_⟩
  · rw [e1]; unfold sep
    rw [if_neg]; rw [le_div_iff₀ hab] at hs; exact not_lt.mpr hs
  · rw [e1]; unfold sep
    rw [div_lt_iff₀ hab] at hs
    rw [if_pos hs]; ring
  · rw [e1, sep_len ha hb (h0.trans h)]
  · rw [e2, e1]

/-- **C16** (effect on the matrix). The entries for two beads only depend on their sizes and on the
separation used for them: two configurations in which this is the same have the same entries, whatever
the other particles do. In particular overlapping beads are treated as if 2.001 average radii
apart. -/
theorem C16_pairwise {P P' : PosData} (hP : Sensible P) (hP' : Sensible P') (h1 : P'.Ns = P.Ns)
    (h2 : P'.Nd = P.Nd) (mu : ℝ) (bb : Bool) {x y : ℕ} {c1 c2 : Comp} (hx : HasRow P.Ns P.Nd x c1)
    (hy : HasRow P.Ns P.Nd y c2) (ha : radius P' x = radius P x) (hb : radius P' y = radius P y)
    (hr : (fun i => centre P' x i - centre P' y i)
        = sep (fun i => centre P x i - centre P y i) (radius P x) (radius P y) ∨
      (fun i => centre P' x i - centre P' y i) = (fun i => centre P x i - centre P y i)) :
    (generate_Minfinity_loop (NDMat.zeros (side P') (side P')) P' (1 / (8 * Real.pi * mu)) mu bb).get
      (row P.Ns x c1) (row P.Ns y c2)
    = (generate_Minfinity_loop (NDMat.zeros (side P) (side P)) P (1 / (8 * Real.pi * mu)) mu bb).get
      (row P.Ns x c1) (row P.Ns y c2) := by
  rw [C48_entry hP mu bb hx hy]
  have := C48_entry hP' mu bb (x := x) (y := y) (c1 := c1) (c2 := c2) (by rw [h1, h2]; exact hx)
    (by rw [h1, h2]; exact hy)
  rw [h1] at this
  rw [this]
  unfold systemMob
  rw [ha, hb]
  by_cases e : x = y
  · rw [if_pos e, if_pos e]
  · rw [if_neg e, if_neg e]
    have hxn : x < beads P := owns_lt (owns_kind hx)
    have hyn : y < beads P := owns_lt (owns_kind hy)
    have h0 : (0 : ℝ) < 1 / 10 ^ 8 := by positivity
    have hl := sep_len (hP.radius_pos x hxn) (hP.radius_pos y hyn)
      (h0.trans (hP.apart x hxn y hyn e))
    rcases hr with hr | hr
    · rw [hr]
      have idem : ∀ q : Fin 3 → ℝ, 2.001 * ((radius P x + radius P y) / 2) ≤ len q →
          sep q (radius P x) (radius P y) = q := by
        intro q hq; unfold sep; rw [if_neg (not_lt.mpr hq)]
      rw [idem _ (by rw [hl]; exact le_max_right _ _)]
    · rw [hr]

/-- Two unit spheres a distance 1 apart are treated as if 2.001 apart. -/
example : (minfRS ![1, 0, 0] 1 1).1 = ![2.001, 0, 0] := by
  have hl : len ![1, 0, 0] = 1 := by simp [len, Fin.sum_univ_three]
  have h := (C16_separation (r := ![1, 0, 0]) (a := 1) (b := 1) one_pos one_pos
    (by rw [hl]; norm_num)).2.1 (by rw [hl]; norm_num)
  rw [hl] at h
  funext i; rw [h i]; fin_cases i <;> simp
example := C16_pairwise demoP_sensible demoP_sensible rfl rfl 1 true (x := 0) (y := 1) (c1 := .f 0)
  (c2 := .s 3) (by simp [HasRow, demoP]) (by simp [HasRow, demoP]) rfl rfl (Or.inr rfl)

/-! ## C18 (far field) -/

theorem beadMap_lt {Ns Nd : ℕ} {σ τ : ℕ → ℕ} (hσ : ∀ i < Ns, σ i < Ns) (hτ : ∀ i < Nd, τ i < Nd)
    {u : ℕ} {c : Comp} (h : HasRow Ns Nd u c) : HasRow Ns Nd (beadMap Ns Nd σ τ u) c := by
  cases c with
  | f i =>
    simp only [HasRow, beadMap] at *
    split_ifs with h1 h2
    · have := hσ u h1; omega
    · have := hτ (u - Ns) (by omega); omega
    · have := hτ (u - (Ns + Nd)) (by omega); omega
  | t i =>
    simp only [HasRow, beadMap] at *
    rw [if_pos h]; exact hσ u h
  | s i =>
    simp only [HasRow, beadMap] at *
    rw [if_pos h]; exact hσ u h

theorem centre_relabel (P : PosData) {σ τ : ℕ → ℕ} (hσ : ∀ i < P.Ns, σ i < P.Ns)
    (hτ : ∀ i < P.Nd, τ i < P.Nd) {u : ℕ} (hu : u < beads P) :
    centre (relabel P σ τ) u = centre P (beadMap P.Ns P.Nd σ τ u) ∧
    radius (relabel P σ τ) u = radius P (beadMap P.Ns P.Nd σ τ u) := by
  simp only [beads] at hu
  have key : ∀ i, centre (relabel P σ τ) u i = centre P (beadMap P.Ns P.Nd σ τ u) i ∧
      radius (relabel P σ τ) u = radius P (beadMap P.Ns P.Nd σ τ u) := by
    intro i
    simp only [centre, radius, beadMap, relabel]
    by_cases h1 : u < P.Ns
    · simp only [if_pos h1, if_pos (hσ u h1)]
      exact ⟨if_pos h1, if_pos h1⟩
    · by_cases h2 : u < P.Ns + P.Nd
      · have h3 := hτ (u - P.Ns) (by omega)
        simp only [if_neg h1, if_pos h2,
          if_neg (show ¬ P.Ns + τ (u - P.Ns) < P.Ns by omega),
          if_pos (show P.Ns + τ (u - P.Ns) < P.Ns + P.Nd by omega), Nat.add_sub_cancel_left]
        exact ⟨(if_neg h1).trans (if_pos h2), (if_neg h1).trans (if_pos h2)⟩
      · have h3 := hτ (u - (P.Ns + P.Nd)) (by omega)
        simp only [if_neg h1, if_neg h2,
          if_neg (show ¬ P.Ns + P.Nd + τ (u - (P.Ns + P.Nd)) < P.Ns by omega),
          if_neg (show ¬ P.Ns + P.Nd + τ (u - (P.Ns + P.Nd)) < P.Ns + P.Nd by omega),
          Nat.add_sub_cancel_left]
        exact ⟨(if_neg h1).trans (if_neg h2), (if_neg h1).trans (if_neg h2)⟩
  exact ⟨funext fun i => (key i).1, (key 0).2⟩

theorem beadMap_inj {Ns Nd : ℕ} {σ τ : ℕ → ℕ} (hσ : ∀ i < Ns, σ i < Ns) (hτ : ∀ i < Nd, τ i < Nd)
    (iσ : ∀ i < Ns, ∀ j < Ns, σ i = σ j → i = j) (iτ : ∀ i < Nd, ∀ j < Nd, τ i = τ j → i = j)
    {u v : ℕ} (hu : u < Ns + 2 * Nd) (hv : v < Ns + 2 * Nd)
    (e : beadMap Ns Nd σ τ u = beadMap Ns Nd σ τ v) : u = v := by
  unfold beadMap at e
  by_cases h1 : u < Ns
  · have a1 := hσ u h1
    by_cases h2 : v < Ns
    · rw [if_pos h1, if_pos h2] at e; exact iσ u h1 v h2 e
    · by_cases h3 : v < Ns + Nd
      · rw [if_pos h1, if_neg h2, if_pos h3] at e; omega
      · rw [if_pos h1, if_neg h2, if_neg h3] at e; omega
  · by_cases h4 : u < Ns + Nd
    · have a1 := hτ (u - Ns) (by omega)
      by_cases h2 : v < Ns
      · have a2 := hσ v h2
        rw [if_neg h1, if_pos h4, if_pos h2] at e; omega
      · by_cases h3 : v < Ns + Nd
        · rw [if_neg h1, if_pos h4, if_neg h2, if_pos h3] at e
          have := iτ (u - Ns) (by omega) (v - Ns) (by omega) (by omega)
          omega
        · rw [if_neg h1, if_pos h4, if_neg h2, if_neg h3] at e; omega
    · have a1 := hτ (u - (Ns + Nd)) (by omega)
      by_cases h2 : v < Ns
      · have a2 := hσ v h2
        rw [if_neg h1, if_neg h4, if_pos h2] at e; omega
      · by_cases h3 : v < Ns + Nd
        · have a2 := hτ (v - Ns) (by omega)
          rw [if_neg h1, if_neg h4, if_neg h2, if_pos h3] at e; omega
        · rw [if_neg h1, if_neg h4, if_neg h2, if_neg h3] at e
          have := iτ (u - (Ns + Nd)) (by omega) (v - (Ns + Nd)) (by omega) (by omega)
          omega

theorem beadMap_sphere {Ns Nd : ℕ} {σ τ : ℕ → ℕ} (hσ : ∀ i < Ns, σ i < Ns) (u : ℕ) :
    Ns ≤ beadMap Ns Nd σ τ u ↔ Ns ≤ u := by
  unfold beadMap
  by_cases h1 : u < Ns
  · rw [if_pos h1]; have := hσ u h1; omega
  · rw [if_neg h1]; split_ifs <;> omega

theorem relabel_sensible {P : PosData} (hP : Sensible P) {σ τ : ℕ → ℕ} (hσ : ∀ i < P.Ns, σ i < P.Ns)
    (hτ : ∀ i < P.Nd, τ i < P.Nd) (iσ : ∀ i < P.Ns, ∀ j < P.Ns, σ i = σ j → i = j)
    (iτ : ∀ i < P.Nd, ∀ j < P.Nd, τ i = τ j → i = j) : Sensible (relabel P σ τ) := by
  have lt : ∀ u < beads P, beadMap P.Ns P.Nd σ τ u < beads P := fun u hu =>
    beadMap_lt (c := .f 0) hσ hτ hu
  constructor
  · intro x hx
    rw [(centre_relabel P hσ hτ hx).2]; exact hP.radius_pos _ (lt x hx)
  · intro x hx y hy e
    rw [(centre_relabel P hσ hτ hx).1, (centre_relabel P hσ hτ hy).1]
    exact hP.apart _ (lt x hx) _ (lt y hy) fun h => e (beadMap_inj hσ hτ iσ iτ hx hy h)

/-- **C18** (far field). Renumbering spheres by a permutation `σ` and dumbbells by a permutation `τ`
permutes the rows and columns of the far-field matrix accordingly. -/
theorem C18_farfield {P : PosData} (hP : Sensible P) {σ τ : ℕ → ℕ} (hσ : ∀ i < P.Ns, σ i < P.Ns)
    (hτ : ∀ i < P.Nd, τ i < P.Nd) (iσ : ∀ i < P.Ns, ∀ j < P.Ns, σ i = σ j → i = j)
    (iτ : ∀ i < P.Nd, ∀ j < P.Nd, τ i = τ j → i = j) (mu : ℝ) (bb : Bool) {x y : ℕ} {c1 c2 : Comp}
    (hx : HasRow P.Ns P.Nd x c1) (hy : HasRow P.Ns P.Nd y c2) :
    (generate_Minfinity_loop (NDMat.zeros (side P) (side P)) (relabel P σ τ)
      (1 / (8 * Real.pi * mu)) mu bb).get (row P.Ns x c1) (row P.Ns y c2)
    = (generate_Minfinity_loop (NDMat.zeros (side P) (side P)) P (1 / (8 * Real.pi * mu)) mu bb).get
      (row P.Ns (beadMap P.Ns P.Nd σ τ x) c1) (row P.Ns (beadMap P.Ns P.Nd σ τ y) c2) := by
  have hxn : x < beads P := owns_lt (owns_kind hx)
  have hyn : y < beads P := owns_lt (owns_kind hy)
  rw [C48_entry hP mu bb (beadMap_lt hσ hτ hx) (beadMap_lt hσ hτ hy)]
  have := C48_entry (relabel_sensible hP hσ hτ iσ iτ) mu bb (x := x) (y := y) (c1 := c1) (c2 := c2)
    hx hy
  refine Eq.trans this ?_
  unfold systemMob
  rw [(centre_relabel P hσ hτ hxn).1, (centre_relabel P hσ hτ hyn).1,
    (centre_relabel P hσ hτ hxn).2, (centre_relabel P hσ hτ hyn).2]
  have hsx := beadMap_sphere (Nd := P.Nd) (τ := τ) hσ x
  have hsy := beadMap_sphere (Nd := P.Nd) (τ := τ) hσ y
  refine if_congr ?_ rfl (if_congr ?_ rfl rfl)
  · exact ⟨fun h => by rw [h], fun h => beadMap_inj hσ hτ iσ iτ hxn hyn h⟩
  · show bb = false ∧ P.Ns ≤ x ∧ P.Ns ≤ y ↔ _
    rw [hsx, hsy]

/-- Exchanging the two spheres of the example. -/
example := C18_farfield demoP_sensible (σ := fun i => 1 - i) (τ := id)
  (by simp only [demoP]; intros; omega) (by simp [demoP]) (by simp only [demoP]; intros; omega)
  (by simp) 2 true (x := 0) (y := 3) (c1 := .s 1) (c2 := .f 2) (by simp [HasRow, demoP])
  (by simp [HasRow, demoP])

/-! ## C11 (mobility) -/

/-- **C11** (mobility). The matrix returned acts on dumbbell forces `(F1+F2, F2-F1)` and gives dumbbell
velocities `((U1+U2)/2, (U2-U1)/2)` exactly as the bead-coordinate matrix acts on bead forces and
gives bead velocities. -/
theorem C11_mobility (P : PosData) (mu : ℝ) (bb : Bool) (φ : ℕ → ℝ) {i : ℕ} (hi : i < side P) :
    mulVec (side P) (generate_Minfinity P mu bb).get (toDumbForce P.Ns P.Nd φ) i
      = toDumbVel P.Ns P.Nd (mulVec (side P) (generate_Minfinity_loop (NDMat.zeros (side P) (side P)) P
          (1 / (8 * Real.pi * mu)) mu bb).get φ) i :=
  Minfinity_mulVec P mu bb φ hi

example := C11_mobility demoP 1 true (fun i => i) (i := 25) (by simp [side, demoP])

end SD
