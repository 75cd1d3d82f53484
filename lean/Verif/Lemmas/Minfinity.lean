import Verif.Model.Minfinity
import Verif.Lemmas.Layout
import Verif.Lemmas.Green

/-!
# Every entry of the far-field mobility matrix
-/

set_option autoImplicit false

namespace SD

open Spec

/-! ## Parity of the closed forms -/

theorem D_J_neg (r : Vec3) (s : ℝ) (l i j : Fin 3) : D_J (-r) s l i j = -D_J r s l i j := by
  simp only [D_J, Pi.neg_apply]; ring

theorem DD_J_neg (r : Vec3) (s : ℝ) (m l i j : Fin 3) : DD_J (-r) s m l i j = DD_J r s m l i j := by
  simp only [DD_J, Pi.neg_apply]; ring

theorem DLap_J_neg (r : Vec3) (s : ℝ) (k i j : Fin 3) : DLap_J (-r) s k i j = -DLap_J r s k i j := by
  simp only [DLap_J, Pi.neg_apply]; ring

theorem DLap_K_neg (r : Vec3) (s : ℝ) (l i j k : Fin 3) :
    DLap_K (-r) s l i j k = DLap_K r s l i j k := by
  simp only [DLap_K, Pi.neg_apply]; ring

theorem M11_neg (x y s a1 a2 : ℝ) (i j : Fin 3) (c mu : ℝ) :
    M11 (-x) (-y) s a1 a2 i j c mu = M11 x y s a1 a2 i j c mu := by
  unfold M11 oseenJ Lap_J; split_ifs <;> ring

theorem M12_neg (r : Vec3) (s a1 a2 : ℝ) (i j : Fin 3) (c mu : ℝ) :
    M12 (-r) s a1 a2 i j c mu = -M12 r s a1 a2 i j c mu := by
  unfold M12 rotletR Lap_R
  have e : ∀ (P : Prop) [Decidable P] (a : ℝ), (if P then -a else 0) = -(if P then a else 0) := by
    intro P _ a; split_ifs <;> simp
  simp only [D_J_neg, DLap_J_neg, mul_neg, e, Finset.sum_neg_distrib]
  split_ifs <;> ring

theorem M13_neg (r : Vec3) (s a1 a2 : ℝ) (i j k : Fin 3) (c mu : ℝ) :
    M13 (-r) s a1 a2 i j k c mu = -M13 r s a1 a2 i j k c mu := by
  unfold M13 tensorK Lap_K
  simp only [D_J_neg, DLap_J_neg]
  split_ifs <;> ring

theorem M22_neg (r : Vec3) (s a1 a2 : ℝ) (i j : Fin 3) (c mu : ℝ) :
    M22 (-r) s a1 a2 i j c mu = M22 r s a1 a2 i j c mu := by
  unfold M22 D_R
  simp only [DD_J_neg, Pi.neg_apply, abs_neg]

theorem M23_neg (r : Vec3) (s a1 a2 : ℝ) (i j k : Fin 3) (c mu : ℝ) :
    M23 (-r) s a1 a2 i j k c mu = M23 r s a1 a2 i j k c mu := by
  unfold M23 D_K
  simp only [DD_J_neg, DLap_K_neg, Pi.neg_apply, abs_neg]

theorem M33_neg (r : Vec3) (s a1 a2 : ℝ) (i j k l : Fin 3) (c mu : ℝ) :
    M33 (-r) s a1 a2 i j k l c mu = M33 r s a1 a2 i j k l c mu := by
  unfold M33 D_K
  simp only [DD_J_neg, DLap_K_neg]

theorem con_M13_row_neg (r : Vec3) (s a1 a2 : ℝ) (i : Fin 3) (c mu : ℝ) (p : Fin 5) :
    con_M13_row (-r) s a1 a2 i c mu p = -con_M13_row r s a1 a2 i c mu p := by
  simp only [con_M13_row, M13_neg]
  fin_cases p <;> simp <;> ring

theorem con_M23_row_neg (r : Vec3) (s a1 a2 : ℝ) (i : Fin 3) (c mu : ℝ) :
    con_M23_row (-r) s a1 a2 i c mu = con_M23_row r s a1 a2 i c mu := by
  simp only [con_M23_row, M23_neg]

theorem norm3_neg (r : Vec3) : norm3 (-r) = norm3 r := by
  simp [norm3]

theorem norm3_zero : norm3 0 = 0 := by simp [norm3]

theorem minfRS_neg (r : Vec3) (a1 a2 : ℝ) :
    (minfRS (-r) a2 a1).1 = -(minfRS r a1 a2).1 ∧ (minfRS (-r) a2 a1).2 = (minfRS r a1 a2).2 := by
  unfold minfRS
  simp only [norm3_neg, add_comm a2 a1]
  split_ifs
  · refine ⟨?_, rfl⟩
    funext i; simp only [Pi.neg_apply]; ring
  · exact ⟨rfl, rfl⟩

theorem eps10_pos : 0 < eps10 := by unfold eps10; positivity

theorem minfRS_zero (a1 a2 : ℝ) : minfRS 0 a1 a2 = (0, 0) := by
  unfold minfRS
  rw [norm3_zero, if_neg]
  rintro ⟨h, -⟩
  have : (0 : ℝ) < 1 / 10 ^ 8 := by positivity
  linarith

/-! ## The value of each block -/

/-- Rescaled displacement of beads `x`, `y`. -/
noncomputable def rr (P : PosData) (x y : ℕ) : Vec3 :=
  (minfRS (P.beadPos x - P.beadPos y) (P.beadSize x) (P.beadSize y)).1

/-- Rescaled distance of beads `x`, `y`. -/
noncomputable def ss (P : PosData) (x y : ℕ) : ℝ :=
  (minfRS (P.beadPos x - P.beadPos y) (P.beadSize x) (P.beadSize y)).2

theorem rr_swap (P : PosData) (x y : ℕ) : rr P y x = -rr P x y := by
  unfold rr; rw [← neg_sub]; exact (minfRS_neg _ _ _).1

theorem ss_swap (P : PosData) (x y : ℕ) : ss P y x = ss P x y := by
  unfold ss; rw [← neg_sub]; exact (minfRS_neg _ _ _).2

theorem rr_self (P : PosData) (x : ℕ) : rr P x x = 0 := by
  unfold rr; rw [sub_self, minfRS_zero]

theorem ss_self (P : PosData) (x : ℕ) : ss P x x = 0 := by
  unfold ss; rw [sub_self, minfRS_zero]

/-- The block for the row group `kx` of bead `x` and the column group `ky` of bead `y`, with
`kx` not after `ky`. -/
noncomputable def mVal (P : PosData) (c mu : ℝ) (kx : Kind) (x : ℕ) (ky : Kind) (y p q : ℕ) : ℝ :=
  let r := rr P x y
  let s := ss P x y
  let a := P.beadSize x
  let b := P.beadSize y
  match kx, ky with
  | .F, .T => M12 r s a b (f3 p) (f3 q) c mu
  | .F, .S => con_M13_row r s a b (f3 p) c mu (f5 q)
  | .T, .T => M22 r s a b (f3 p) (f3 q) c mu
  | .T, .S => con_M23_row r s a b (f3 p) c mu (f5 q)
  | .S, .S => if s ≤ eps10 then 1 / (20 / 3 * Real.pi * mu * a ^ 3) else
      condense55 (fun i j k l => M33 r s a b i j k l c mu) (f5 p) (f5 q)
  | .T, _ => M12 (-r) s b a (f3 q) (f3 p) c mu
  | .S, _ => condense53 (fun i j k => M13 (-r) s b a i j k c mu) (f5 p) (f3 q)
  | _, _ => blkM11 r s a b c mu p q

theorem mVal_FF (P : PosData) (c mu : ℝ) (x y : ℕ) : mVal P c mu .F x .F y =
    blkM11 (rr P x y) (ss P x y) (P.beadSize x) (P.beadSize y) c mu := rfl
theorem mVal_FT (P : PosData) (c mu : ℝ) (x y : ℕ) : mVal P c mu .F x .T y = fun p q =>
    M12 (rr P x y) (ss P x y) (P.beadSize x) (P.beadSize y) (f3 p) (f3 q) c mu := rfl
theorem mVal_FS (P : PosData) (c mu : ℝ) (x y : ℕ) : mVal P c mu .F x .S y = fun p q =>
    con_M13_row (rr P x y) (ss P x y) (P.beadSize x) (P.beadSize y) (f3 p) c mu (f5 q) := rfl
theorem mVal_TT (P : PosData) (c mu : ℝ) (x y : ℕ) : mVal P c mu .T x .T y = fun p q =>
    M22 (rr P x y) (ss P x y) (P.beadSize x) (P.beadSize y) (f3 p) (f3 q) c mu := rfl
theorem mVal_TS (P : PosData) (c mu : ℝ) (x y : ℕ) : mVal P c mu .T x .S y = fun p q =>
    con_M23_row (rr P x y) (ss P x y) (P.beadSize x) (P.beadSize y) (f3 p) c mu (f5 q) := rfl

/-- The entry is written at all. -/
def mWritten (P : PosData) (bb : Bool) (kx : Kind) (x : ℕ) (ky : Kind) (y p q : ℕ) : Prop :=
  match kx, ky with
  | .S, .S => ss P x y ≤ eps10 → p = q
  | .B1, .B1 => bb = true ∨ x = y
  | .B1, .B2 => bb = true
  | .B2, .B2 => bb = true ∨ x = y
  | _, _ => True

/-- Row groups in order, and beads in order within a group. -/
def before : Kind → ℕ → Kind → ℕ → Prop
  | .F, x, .F, y => x ≤ y
  | .F, _, _, _ => True
  | .T, x, .T, y => x ≤ y
  | .T, _, .F, _ => False
  | .T, _, _, _ => True
  | .S, x, .S, y => x ≤ y
  | .S, _, .F, _ => False
  | .S, _, .T, _ => False
  | .S, _, _, _ => True
  | .B1, x, .B1, y => x ≤ y
  | .B1, _, .B2, _ => True
  | .B1, _, _, _ => False
  | .B2, x, .B2, y => x ≤ y
  | .B2, _, _, _ => False

/-- The equal-size shortcut writes the mirror blocks. -/
theorem shortcut_eq (P : PosData) (c mu : ℝ) (X : NDMat) {u v : ℕ} (hu : u < P.Ns) (hv : v < P.Ns)
    (he : P.beadSize u = P.beadSize v)
    (h1 : ∀ i < 3, ∀ j < 3, X.get (base P.Ns P.Nd .F u + i) (base P.Ns P.Nd .T v + j)
      = mVal P c mu .F u .T v i j)
    (h2 : ∀ i < 3, ∀ j < 5, X.get (base P.Ns P.Nd .F u + i) (base P.Ns P.Nd .S v + j)
      = mVal P c mu .F u .S v i j)
    (h3 : ∀ i < 3, ∀ j < 5, X.get (base P.Ns P.Nd .T u + i) (base P.Ns P.Nd .S v + j)
      = mVal P c mu .T u .S v i j) :
    (let D := writeAt X (base P.Ns P.Nd .F v, base P.Ns P.Nd .T u) 3 3 fun i j =>
      -X.get (base P.Ns P.Nd .F u + i) (base P.Ns P.Nd .T v + j)
     let D := writeAt D (base P.Ns P.Nd .F v, base P.Ns P.Nd .S u) 3 5 fun i j =>
      -D.get (base P.Ns P.Nd .F u + i) (base P.Ns P.Nd .S v + j)
     writeAt D (base P.Ns P.Nd .T v, base P.Ns P.Nd .S u) 3 5 fun i j =>
      D.get (base P.Ns P.Nd .T u + i) (base P.Ns P.Nd .S v + j))
    = writeAt (writeAt (writeAt X (base P.Ns P.Nd .F v, base P.Ns P.Nd .T u) 3 3
        (mVal P c mu .F v .T u)) (base P.Ns P.Nd .F v, base P.Ns P.Nd .S u) 3 5
        (mVal P c mu .F v .S u)) (base P.Ns P.Nd .T v, base P.Ns P.Nd .S u) 3 5
        (mVal P c mu .T v .S u) := by
  have hr := rr_swap P u v
  have hs := ss_swap P u v
  have e1 : writeAt X (base P.Ns P.Nd .F v, base P.Ns P.Nd .T u) 3 3 (fun i j =>
      -X.get (base P.Ns P.Nd .F u + i) (base P.Ns P.Nd .T v + j))
      = writeAt X (base P.Ns P.Nd .F v, base P.Ns P.Nd .T u) 3 3 (mVal P c mu .F v .T u) := by
    apply writeAt_congr
    intro i hi j hj
    rw [h1 i hi j hj, mVal_FT, mVal_FT, hr, hs, he]
    simp only [M12_neg]
  dsimp only
  rw [e1]
  generalize hY : writeAt X (base P.Ns P.Nd .F v, base P.Ns P.Nd .T u) 3 3 (mVal P c mu .F v .T u)
    = Y
  have e2 : writeAt Y (base P.Ns P.Nd .F v, base P.Ns P.Nd .S u) 3 5 (fun i j =>
      -Y.get (base P.Ns P.Nd .F u + i) (base P.Ns P.Nd .S v + j))
      = writeAt Y (base P.Ns P.Nd .F v, base P.Ns P.Nd .S u) 3 5 (mVal P c mu .F v .S u) := by
    apply writeAt_congr
    intro i hi j hj
    rw [← hY, writeAt_get (k1 := .F) (u1 := v) (k2 := .T) (u2 := u) (kx := .F) (ky := .S) hv hu hu hv
      hi hj X _ 3 3 rfl rfl _ rfl]
    rw [if_neg (by simp), h2 i hi j hj, mVal_FS, mVal_FS, hr, hs, he]
    simp only [con_M13_row_neg]
  rw [e2]
  apply writeAt_congr
  intro i hi j hj
  rw [writeAt_get (k1 := .F) (u1 := v) (k2 := .S) (u2 := u) (kx := .T) (ky := .S) hv hu hu hv
      hi hj _ _ 3 5 rfl rfl _ rfl, if_neg (by simp), ← hY]
  rw [writeAt_get (k1 := .F) (u1 := v) (k2 := .T) (u2 := u) (kx := .T) (ky := .S) hv hu hu hv
      hi hj X _ 3 3 rfl rfl _ rfl, if_neg (by simp), h3 i hi j hj, mVal_TS, mVal_TS, hr, hs, he]
  simp only [con_M23_row_neg]

/-- Everything the sphere-sphere branch writes, in the order it is written. -/
theorem sphereSphere_eq (P : PosData) (c mu : ℝ) (D : NDMat) {u v : ℕ}
    (hu : u < P.Ns) (hv : v < P.Ns) :
    minfSphereSphere D (submatrix_coords_tuple u v P.Ns P.Nd) (rr P u v) (ss P u v)
      (P.beadSize u) (P.beadSize v) c mu
    = let B := base P.Ns P.Nd
      let V := mVal P c mu
      let D := writeAt D (B .F u, B .F v) 3 3 (V .F u .F v)
      let D := writeAt D (B .F u, B .T v) 3 3 (V .F u .T v)
      let D := writeAt D (B .T u, B .T v) 3 3 (V .T u .T v)
      let D := writeAt D (B .F u, B .S v) 3 5 (V .F u .S v)
      let D := writeAt D (B .T u, B .S v) 3 5 (V .T u .S v)
      let D := if ss P u v ≤ eps10 then
          (List.range 5).foldl (fun D i =>
            writeAt D (B .S u + i, B .S v + i) 1 1 fun _ _ =>
              1 / (20 / 3 * Real.pi * mu * P.beadSize u ^ 3)) D
        else writeAt D (B .S u, B .S v) 5 5 (V .S u .S v)
      let D := writeAt D (B .F v, B .T u) 3 3 (V .F v .T u)
      let D := writeAt D (B .F v, B .S u) 3 5 (V .F v .S u)
      writeAt D (B .T v, B .S u) 3 5 (V .T v .S u) := by
  unfold minfSphereSphere
  have hr := rr_swap P u v
  have hs := ss_swap P u v
  generalize hK : submatrix_coords_tuple u v P.Ns P.Nd = K
  have kBt21 : K.Bt21 = (base P.Ns P.Nd .F v, base P.Ns P.Nd .T u) := by subst hK; rfl
  have kGt21 : K.Gt21 = (base P.Ns P.Nd .F v, base P.Ns P.Nd .S u) := by subst hK; rfl
  have kHt21 : K.Ht21 = (base P.Ns P.Nd .T v, base P.Ns P.Nd .S u) := by subst hK; rfl
  have kA : K.A = (base P.Ns P.Nd .F u, base P.Ns P.Nd .F v) := by subst hK; rfl
  have kBt : K.Bt = (base P.Ns P.Nd .F u, base P.Ns P.Nd .T v) := by subst hK; rfl
  have kC : K.C = (base P.Ns P.Nd .T u, base P.Ns P.Nd .T v) := by subst hK; rfl
  have kGt : K.Gt = (base P.Ns P.Nd .F u, base P.Ns P.Nd .S v) := by subst hK; rfl
  have kHt : K.Ht = (base P.Ns P.Nd .T u, base P.Ns P.Nd .S v) := by subst hK; rfl
  have kM : K.M = (base P.Ns P.Nd .S u, base P.Ns P.Nd .S v) := by subst hK; rfl
  simp only [kA, kBt, kBt21, kGt, kGt21, kC, kHt, kHt21, kM]
  have hG := fun D => rows_eq 3 D (base P.Ns P.Nd .F u) (base P.Ns P.Nd .S v) 5 fun i j =>
    con_M13_row (rr P u v) (ss P u v) (P.beadSize u) (P.beadSize v) (f3 i) c mu (f5 j)
  have hH := fun D => rows_eq 3 D (base P.Ns P.Nd .T u) (base P.Ns P.Nd .S v) 5 fun i j =>
    con_M23_row (rr P u v) (ss P u v) (P.beadSize u) (P.beadSize v) (f3 i) c mu (f5 j)
  have hGH := fun D => rows2_eq 3 D (base P.Ns P.Nd .F v) (base P.Ns P.Nd .S u) 5
    (base P.Ns P.Nd .T v) (base P.Ns P.Nd .S u) 5
    (fun i j => con_M13_row (-rr P u v) (ss P u v) (P.beadSize v) (P.beadSize u) (f3 i) c mu (f5 j))
    (fun i j => con_M23_row (-rr P u v) (ss P u v) (P.beadSize v) (P.beadSize u) (f3 i) c mu (f5 j))
    (by simp only [base]; omega)
  simp only [hG, hH, hGH]
  have hSS : ∀ D : NDMat, (if ss P u v ≤ eps10 then
          (List.range 5).foldl (fun D i =>
            writeAt D (base P.Ns P.Nd .S u + i, base P.Ns P.Nd .S v + i) 1 1 fun _ _ =>
              1 / (20 / 3 * Real.pi * mu * P.beadSize u ^ 3)) D
        else writeAt D (base P.Ns P.Nd .S u, base P.Ns P.Nd .S v) 5 5 fun i j =>
          condense55 (fun i j k l => M33 (rr P u v) (ss P u v) (P.beadSize u) (P.beadSize v)
            i j k l c mu) (f5 i) (f5 j))
      = if ss P u v ≤ eps10 then
          (List.range 5).foldl (fun D i =>
            writeAt D (base P.Ns P.Nd .S u + i, base P.Ns P.Nd .S v + i) 1 1 fun _ _ =>
              1 / (20 / 3 * Real.pi * mu * P.beadSize u ^ 3)) D
        else writeAt D (base P.Ns P.Nd .S u, base P.Ns P.Nd .S v) 5 5 (mVal P c mu .S u .S v) := by
    intro D
    by_cases h : ss P u v ≤ eps10
    · rw [if_pos h, if_pos h]
    · rw [if_neg h, if_neg h]
      apply writeAt_congr
      intro i _ j _
      simp only [mVal, if_neg h]
  have hS1 : ∀ D : NDMat, ∀ i j, i < 6 * P.Ns → (if ss P u v ≤ eps10 then
          (List.range 5).foldl (fun D i =>
            writeAt D (base P.Ns P.Nd .S u + i, base P.Ns P.Nd .S v + i) 1 1 fun _ _ =>
              1 / (20 / 3 * Real.pi * mu * P.beadSize u ^ 3)) D
        else writeAt D (base P.Ns P.Nd .S u, base P.Ns P.Nd .S v) 5 5
          (mVal P c mu .S u .S v)).get i j = D.get i j := by
    intro D i j hi
    split_ifs with h
    · rw [diag_get, if_neg]
      simp only [base]; omega
    · unfold writeAt; rw [NDMat.setBlock_out]
      simp only [base]; omega
  simp only [hSS]
  have oF : ∀ k, k = Kind.F ∨ k = Kind.T ∨ k = Kind.S → owns P.Ns P.Nd k u ∧ owns P.Ns P.Nd k v := by
    rintro k (rfl | rfl | rfl) <;> exact ⟨hu, hv⟩
  have oFu := (oF .F (by simp)).1
  have oFv := (oF .F (by simp)).2
  have oTu := (oF .T (by simp)).1
  have oTv := (oF .T (by simp)).2
  have oSu := (oF .S (by simp)).1
  have oSv := (oF .S (by simp)).2
  by_cases he : P.beadSize u = P.beadSize v
  · rw [if_pos he]
    have L1 : ∀ i < 3, base P.Ns P.Nd .F u + i < 6 * P.Ns := by
      intro i hi; simp only [base]; omega
    have L2 : ∀ i < 3, base P.Ns P.Nd .T u + i < 6 * P.Ns := by
      intro i hi; simp only [base]; omega
    refine Eq.trans (shortcut_eq P c mu _ hu hv he ?_ ?_ ?_) ?_
    · intro i hi j hj
      rw [hS1 _ _ _ (L1 i hi),
        writeAt_get (kx := .F) (ky := .T) oTu oSv oFu oTv hi hj _ _ 3 5 rfl rfl _ rfl,
        if_neg (by simp),
        writeAt_get (kx := .F) (ky := .T) oFu oSv oFu oTv hi hj _ _ 3 5 rfl rfl _ rfl,
        if_neg (by simp),
        writeAt_get (kx := .F) (ky := .T) oTu oTv oFu oTv hi hj _ _ 3 3 rfl rfl _ rfl,
        if_neg (by simp),
        writeAt_get (kx := .F) (ky := .T) oFu oTv oFu oTv hi hj _ _ 3 3 rfl rfl _ rfl,
        if_pos (by simp)]
      rfl
    · intro i hi j hj
      rw [hS1 _ _ _ (L1 i hi),
        writeAt_get (kx := .F) (ky := .S) oTu oSv oFu oSv hi hj _ _ 3 5 rfl rfl _ rfl,
        if_neg (by simp),
        writeAt_get (kx := .F) (ky := .S) oFu oSv oFu oSv hi hj _ _ 3 5 rfl rfl _ rfl,
        if_pos (by simp)]
      rfl
    · intro i hi j hj
      rw [hS1 _ _ _ (L2 i hi),
        writeAt_get (kx := .T) (ky := .S) oTu oSv oTu oSv hi hj _ _ 3 5 rfl rfl _ rfl,
        if_pos (by simp)]
      rfl
    · rfl
  · rw [if_neg he]
    simp only [mVal_FF, mVal_FT, mVal_FS, mVal_TT, mVal_TS, hr, hs]

/-- Condition under which the pair `(u, v)` writes the entry for beads `x`, `y`. -/
def touches (u v x y : ℕ) : Prop := (x = u ∧ y = v) ∨ (x = v ∧ y = u)

open Classical in
theorem sphereSphere_get (P : PosData) (c mu : ℝ) (bb : Bool) (D : NDMat) {u v : ℕ} (huv : u ≤ v)
    (hu : u < P.Ns) (hv : v < P.Ns) {kx ky : Kind} {x y p q : ℕ}
    (hx : owns P.Ns P.Nd kx x) (hy : owns P.Ns P.Nd ky y) (hp : p < kx.dim) (hq : q < ky.dim)
    (hb : before kx x ky y) :
    (minfSphereSphere D (submatrix_coords_tuple u v P.Ns P.Nd) (rr P u v) (ss P u v)
      (P.beadSize u) (P.beadSize v) c mu).get (base P.Ns P.Nd kx x + p) (base P.Ns P.Nd ky y + q)
    = if touches u v x y ∧ mWritten P bb kx x ky y p q then mVal P c mu kx x ky y p q
      else D.get (base P.Ns P.Nd kx x + p) (base P.Ns P.Nd ky y + q) := by
  have oFu : owns P.Ns P.Nd .F u := hu
  have oFv : owns P.Ns P.Nd .F v := hv
  have oTu : owns P.Ns P.Nd .T u := hu
  have oTv : owns P.Ns P.Nd .T v := hv
  have oSu : owns P.Ns P.Nd .S u := hu
  have oSv : owns P.Ns P.Nd .S v := hv
  rw [sphereSphere_eq P c mu D hu hv]
  dsimp only
  rw [writeAt_get oTv oSu hx hy hp hq _ _ 3 5 rfl rfl _ rfl,
    writeAt_get oFv oSu hx hy hp hq _ _ 3 5 rfl rfl _ rfl,
    writeAt_get oFv oTu hx hy hp hq _ _ 3 3 rfl rfl _ rfl]
  have hM : ∀ D : NDMat, (if ss P u v ≤ eps10 then
          (List.range 5).foldl (fun D i =>
            writeAt D (base P.Ns P.Nd .S u + i, base P.Ns P.Nd .S v + i) 1 1 fun _ _ =>
              1 / (20 / 3 * Real.pi * mu * P.beadSize u ^ 3)) D
        else writeAt D (base P.Ns P.Nd .S u, base P.Ns P.Nd .S v) 5 5
          (mVal P c mu .S u .S v)).get (base P.Ns P.Nd kx x + p) (base P.Ns P.Nd ky y + q)
      = if (kx = .S ∧ ky = .S) ∧ (x = u ∧ y = v) ∧ (ss P u v ≤ eps10 → p = q) then
          mVal P c mu .S u .S v p q
        else D.get (base P.Ns P.Nd kx x + p) (base P.Ns P.Nd ky y + q) := by
    intro D
    by_cases h : ss P u v ≤ eps10
    · rw [if_pos h, diag_get]
      by_cases h2 : (kx = .S ∧ ky = .S) ∧ (x = u ∧ y = v) ∧ (ss P u v ≤ eps10 → p = q)
      · rw [if_pos h2]
        obtain ⟨⟨rfl, rfl⟩, ⟨rfl, rfl⟩, h3⟩ := h2
        have := h3 h
        subst this
        rw [if_pos]
        · simp only [mVal, if_pos h]
        · simp only [Kind.dim] at hp; omega
      · rw [if_neg h2, if_neg]
        rintro ⟨a1, a2, a3, a4, a5⟩
        apply h2
        have e1 := slot_unique hx oSu hp (p' := base P.Ns P.Nd kx x + p - base P.Ns P.Nd .S u)
          (by simp only [Kind.dim]; omega) (by omega)
        have e2 := slot_unique hy oSv hq (p' := base P.Ns P.Nd ky y + q - base P.Ns P.Nd .S v)
          (by simp only [Kind.dim]; omega) (by omega)
        refine ⟨⟨e1.1, e2.1⟩, ⟨e1.2.1, e2.2.1⟩, fun _ => ?_⟩
        omega
    · rw [if_neg h, writeAt_get oSu oSv hx hy hp hq _ _ 5 5 rfl rfl _ rfl]
      simp only [h, false_imp_iff, and_true]
  rw [hM, writeAt_get oTu oSv hx hy hp hq _ _ 3 5 rfl rfl _ rfl,
    writeAt_get oFu oSv hx hy hp hq _ _ 3 5 rfl rfl _ rfl,
    writeAt_get oTu oTv hx hy hp hq _ _ 3 3 rfl rfl _ rfl,
    writeAt_get oFu oTv hx hy hp hq _ _ 3 3 rfl rfl _ rfl,
    writeAt_get oFu oFv hx hy hp hq _ _ 3 3 rfl rfl _ rfl]
  unfold touches
  have key : ∀ (A W : Prop) (V E L : ℝ), (A → W → L = V) → (¬ A → L = E) → (A → ¬ W → L = E) →
      L = if A ∧ W then V else E := by
    intro A W V E L h1 h2 h3
    split_ifs with h
    · exact h1 h.1 h.2
    · by_cases hA : A
      · exact h3 hA (fun w => h ⟨hA, w⟩)
      · exact h2 hA
  apply key
  · intro hA hW
    cases kx <;> cases ky <;>
      simp only [reduceCtorEq, true_and, and_true, false_and, and_false, if_false, before, owns,
        mWritten] at hb hx hy hW ⊢
    case S.S =>
      have h2 : x = u ∧ y = v := by omega
      obtain ⟨rfl, rfl⟩ := h2
      rw [if_pos ⟨⟨rfl, rfl⟩, hW⟩]
    case F.F =>
      have h2 : x = u ∧ y = v := by omega
      obtain ⟨rfl, rfl⟩ := h2
      simp
    case T.T =>
      have h2 : x = u ∧ y = v := by omega
      obtain ⟨rfl, rfl⟩ := h2
      simp
    case F.T =>
      rcases hA with ⟨rfl, rfl⟩ | ⟨rfl, rfl⟩
      · by_cases h : x = y ∧ y = x
        · obtain ⟨rfl, -⟩ := h; simp
        · rw [if_neg h]; simp
      · simp
    case F.S =>
      rcases hA with ⟨rfl, rfl⟩ | ⟨rfl, rfl⟩
      · by_cases h : x = y ∧ y = x
        · obtain ⟨rfl, -⟩ := h; simp
        · rw [if_neg h]; simp
      · simp
    case T.S =>
      rcases hA with ⟨rfl, rfl⟩ | ⟨rfl, rfl⟩
      · by_cases h : x = y ∧ y = x
        · obtain ⟨rfl, -⟩ := h; simp
        · rw [if_neg h]; simp
      · simp
    all_goals (exfalso; omega)
  · intro hA
    have h1 : ¬ (x = u ∧ y = v) := fun h => hA (Or.inl h)
    have h2 : ¬ (x = v ∧ y = u) := fun h => hA (Or.inr h)
    simp only [h1, h2, and_false, false_and, if_false]
  · intro hA hW
    cases kx <;> cases ky <;>
      simp only [reduceCtorEq, true_and, and_true, false_and, and_false, if_false, owns,
        mWritten, not_true] at hx hy hW ⊢
    case S.S =>
      rw [if_neg]
      rintro ⟨⟨rfl, rfl⟩, h⟩
      exact hW h

open Classical in
theorem sphereBead_get (P : PosData) (c mu : ℝ) (bb : Bool) (D : NDMat) {u v : ℕ} {kv : Kind}
    (hk : kv = .B1 ∨ kv = .B2)
    (hu : u < P.Ns) (hv : owns P.Ns P.Nd kv v) {kx ky : Kind} {x y p q : ℕ}
    (hx : owns P.Ns P.Nd kx x) (hy : owns P.Ns P.Nd ky y) (hp : p < kx.dim) (hq : q < ky.dim)
    (hb : before kx x ky y) (K1 K2 K3 : ℕ × ℕ)
    (h1 : K1 = (base P.Ns P.Nd .F u, base P.Ns P.Nd kv v))
    (h2 : K2 = (base P.Ns P.Nd .T u, base P.Ns P.Nd kv v))
    (h3 : K3 = (base P.Ns P.Nd .S u, base P.Ns P.Nd kv v)) :
    (minfSphereBead D K1 K2 K3 (rr P u v) (ss P u v)
      (P.beadSize u) (P.beadSize v) c mu).get (base P.Ns P.Nd kx x + p) (base P.Ns P.Nd ky y + q)
    = if touches u v x y ∧ mWritten P bb kx x ky y p q then mVal P c mu kx x ky y p q
      else D.get (base P.Ns P.Nd kx x + p) (base P.Ns P.Nd ky y + q) := by
  have oFu : owns P.Ns P.Nd .F u := hu
  have oTu : owns P.Ns P.Nd .T u := hu
  have oSu : owns P.Ns P.Nd .S u := hu
  have hd : 3 = kv.dim := by rcases hk with rfl | rfl <;> rfl
  unfold minfSphereBead
  dsimp only
  rw [writeAt_get oSu hv hx hy hp hq _ _ 5 3 rfl hd _ h3,
    writeAt_get oTu hv hx hy hp hq _ _ 3 3 rfl hd _ h2,
    writeAt_get oFu hv hx hy hp hq _ _ 3 3 rfl hd _ h1]
  have key : ∀ (A W : Prop) (V E L : ℝ), (A → W ∧ L = V) → (¬ A → L = E) →
      L = if A ∧ W then V else E := by
    intro A W V E L h1 h2
    split_ifs with h
    · exact (h1 h.1).2
    · exact h2 fun a => h ⟨a, (h1 a).1⟩
  apply key
  · intro hA
    unfold touches at hA
    rcases hk with rfl | rfl <;> cases kx <;> cases ky <;>
      simp only [owns, before] at hb hx hy hv <;>
      first
        | (exfalso; omega)
        | (have h : x = u ∧ y = v := by omega
           obtain ⟨rfl, rfl⟩ := h
           simp [mWritten, mVal])
  · intro hA
    have h1 : ¬ (x = u ∧ y = v) := fun h => hA (Or.inl h)
    simp only [h1, and_false, if_false]

open Classical in
theorem beadBead_get (P : PosData) (c mu : ℝ) (bb : Bool) (D : NDMat) {u v : ℕ} {ku kv : Kind}
    (hk : (ku = .B1 ∧ kv = .B1) ∨ (ku = .B1 ∧ kv = .B2) ∨ (ku = .B2 ∧ kv = .B2)) (huv : u ≤ v)
    (hu : owns P.Ns P.Nd ku u) (hv : owns P.Ns P.Nd kv v) {kx ky : Kind} {x y p q : ℕ}
    (hx : owns P.Ns P.Nd kx x) (hy : owns P.Ns P.Nd ky y) (hp : p < kx.dim) (hq : q < ky.dim)
    (hb : before kx x ky y) (K : ℕ × ℕ)
    (h1 : K = (base P.Ns P.Nd ku u, base P.Ns P.Nd kv v)) (W : Bool)
    (hW : W = true ↔ bb = true ∨ u = v) :
    (if W then writeAt D K 3 3 (blkM11 (rr P u v) (ss P u v)
      (P.beadSize u) (P.beadSize v) c mu) else D).get
        (base P.Ns P.Nd kx x + p) (base P.Ns P.Nd ky y + q)
    = if touches u v x y ∧ mWritten P bb kx x ky y p q then mVal P c mu kx x ky y p q
      else D.get (base P.Ns P.Nd kx x + p) (base P.Ns P.Nd ky y + q) := by
  have hd1 : 3 = ku.dim := by rcases hk with ⟨rfl, rfl⟩ | ⟨rfl, rfl⟩ | ⟨rfl, rfl⟩ <;> rfl
  have hd : 3 = kv.dim := by rcases hk with ⟨rfl, rfl⟩ | ⟨rfl, rfl⟩ | ⟨rfl, rfl⟩ <;> rfl
  have hg : (if W then writeAt D K 3 3 (blkM11 (rr P u v) (ss P u v)
      (P.beadSize u) (P.beadSize v) c mu) else D).get
        (base P.Ns P.Nd kx x + p) (base P.Ns P.Nd ky y + q)
      = if ((kx = ku ∧ ky = kv) ∧ x = u ∧ y = v) ∧ W = true then blkM11 (rr P u v) (ss P u v)
      (P.beadSize u) (P.beadSize v) c mu p q else
        D.get (base P.Ns P.Nd kx x + p) (base P.Ns P.Nd ky y + q) := by
    cases W
    · simp
    · simp only [if_true, and_true]
      rw [writeAt_get hu hv hx hy hp hq _ _ 3 3 hd1 hd _ h1]
  rw [hg]
  have key : ∀ (A W : Prop) (V E L : ℝ), (A → W → L = V) → (¬ A → L = E) → (A → ¬ W → L = E) →
      L = if A ∧ W then V else E := by
    intro A W V E L h1 h2 h3
    split_ifs with h
    · exact h1 h.1 h.2
    · by_cases hA : A
      · exact h3 hA (fun w => h ⟨hA, w⟩)
      · exact h2 hA
  apply key
  · intro hA hm
    unfold touches at hA
    rcases hk with ⟨rfl, rfl⟩ | ⟨rfl, rfl⟩ | ⟨rfl, rfl⟩ <;> cases kx <;> cases ky <;>
      simp only [owns, before] at hb hx hy hv hu <;>
      first
        | (exfalso; omega)
        | (have h : x = u ∧ y = v := by omega
           obtain ⟨rfl, rfl⟩ := h
           simp only [mWritten] at hm
           rw [if_pos ⟨⟨⟨rfl, rfl⟩, rfl, rfl⟩, hW.mpr (by tauto)⟩]
           rfl)
  · intro hA
    have h1 : ¬ (x = u ∧ y = v) := fun h => hA (Or.inl h)
    simp only [h1, and_false, false_and, if_false]
  · intro hA hm
    rw [if_neg]
    rintro ⟨⟨⟨rfl, rfl⟩, rfl, rfl⟩, w⟩
    apply hm
    rw [hW] at w
    rcases hk with ⟨rfl, rfl⟩ | ⟨rfl, rfl⟩ | ⟨rfl, rfl⟩ <;> simp only [mWritten, owns] at *
    · exact w
    · rcases w with w | w
      · exact w
      · omega
    · exact w

open Classical in
/-- What one pass of the loop does to an entry. -/
theorem minfStep_get (P : PosData) (c mu : ℝ) (bb : Bool) (D : NDMat) {u v : ℕ} (huv : u ≤ v)
    (hvn : v < P.Ns + 2 * P.Nd) {kx ky : Kind} {x y p q : ℕ}
    (hx : owns P.Ns P.Nd kx x) (hy : owns P.Ns P.Nd ky y) (hp : p < kx.dim) (hq : q < ky.dim)
    (hb : before kx x ky y) :
    (minfStep P c mu bb D (u, v)).get (base P.Ns P.Nd kx x + p) (base P.Ns P.Nd ky y + q)
    = if touches u v x y ∧ mWritten P bb kx x ky y p q then mVal P c mu kx x ky y p q
      else D.get (base P.Ns P.Nd kx x + p) (base P.Ns P.Nd ky y + q) := by
  unfold minfStep
  simp only [is_sphere, is_dumbbell_bead_1, is_dumbbell_bead_2, Bool.and_eq_true, decide_eq_true_eq]
  rcases Nat.lt_or_ge u P.Ns with h1 | h1
  · rcases Nat.lt_or_ge v P.Ns with h2 | h2
    · rw [if_pos (by omega)]
      exact sphereSphere_get P c mu bb D huv h1 h2 hx hy hp hq hb
    · rcases Nat.lt_or_ge v (P.Ns + P.Nd) with h3 | h3
      · rw [if_neg (by omega), if_pos (by omega)]
        exact sphereBead_get P c mu bb D (kv := .B1) (Or.inl rfl) h1 ⟨h2, h3⟩ hx hy hp hq hb _ _ _
          rfl rfl rfl
      · rw [if_neg (by omega), if_neg (by omega), if_pos (by omega)]
        exact sphereBead_get P c mu bb D (kv := .B2) (Or.inr rfl) h1 ⟨h3, hvn⟩ hx hy hp hq hb _ _ _
          rfl rfl rfl
  · rcases Nat.lt_or_ge u (P.Ns + P.Nd) with h2 | h2
    · rcases Nat.lt_or_ge v (P.Ns + P.Nd) with h3 | h3
      · rw [if_neg (by omega), if_neg (by omega), if_neg (by omega), if_pos (by omega)]
        exact beadBead_get P c mu bb D (ku := .B1) (kv := .B1) (by simp) huv ⟨h1, h2⟩
          ⟨by omega, h3⟩ hx hy hp hq hb _ rfl (bb || u == v) (by simp)
      · rw [if_neg (by omega), if_neg (by omega), if_neg (by omega), if_neg (by omega),
          if_pos (by omega)]
        exact beadBead_get P c mu bb D (ku := .B1) (kv := .B2) (by simp) huv ⟨h1, h2⟩
          ⟨h3, hvn⟩ hx hy hp hq hb _ rfl bb (by
            constructor
            · intro h; exact Or.inl h
            · rintro (h | h)
              · exact h
              · omega)
    · rw [if_neg (by omega), if_neg (by omega), if_neg (by omega), if_neg (by omega),
          if_neg (by omega)]
      exact beadBead_get P c mu bb D (ku := .B2) (kv := .B2) (by simp) huv ⟨h2, by omega⟩
          ⟨by omega, hvn⟩ hx hy hp hq hb _ rfl (bb || u == v) (by simp)

open Classical in
/-- Every entry of the assembled matrix whose row group comes first. -/
theorem minfLoop_get (P : PosData) (c mu : ℝ) (bb : Bool) {kx ky : Kind} {x y p q : ℕ} (n m : ℕ)
    (hx : owns P.Ns P.Nd kx x) (hy : owns P.Ns P.Nd ky y) (hp : p < kx.dim) (hq : q < ky.dim)
    (hb : before kx x ky y) :
    ((pairs (P.Ns + 2 * P.Nd)).foldl (minfStep P c mu bb) (NDMat.zeros n m)).get
        (base P.Ns P.Nd kx x + p) (base P.Ns P.Nd ky y + q)
    = if mWritten P bb kx x ky y p q then mVal P c mu kx x ky y p q else 0 := by
  by_cases hw : mWritten P bb kx x ky y p q
  · rw [if_pos hw]
    apply foldl_get
    · rintro ⟨u, v⟩ huv D
      rw [mem_pairs] at huv
      rw [minfStep_get P c mu bb D huv.1 huv.2 hx hy hp hq hb]
      split_ifs
      · exact Or.inl rfl
      · exact Or.inr rfl
    · have hxn := owns_lt hx
      have hyn := owns_lt hy
      rcases Nat.le_total x y with h | h
      · refine ⟨(x, y), mem_pairs.mpr ⟨h, hyn⟩, fun D => ?_⟩
        rw [minfStep_get P c mu bb D h hyn hx hy hp hq hb, if_pos ⟨Or.inl ⟨rfl, rfl⟩, hw⟩]
      · refine ⟨(y, x), mem_pairs.mpr ⟨h, hxn⟩, fun D => ?_⟩
        rw [minfStep_get P c mu bb D h hxn hx hy hp hq hb, if_pos ⟨Or.inr ⟨rfl, rfl⟩, hw⟩]
  · rw [if_neg hw, foldl_get_same]
    · rfl
    · rintro ⟨u, v⟩ huv D
      rw [mem_pairs] at huv
      rw [minfStep_get P c mu bb D huv.1 huv.2 hx hy hp hq hb, if_neg (fun h => hw h.2)]

theorem before_le {Ns Nd : ℕ} {kx ky : Kind} {x y p q : ℕ} (hx : owns Ns Nd kx x)
    (hy : owns Ns Nd ky y) (hp : p < kx.dim) (hq : q < ky.dim)
    (h : base Ns Nd kx x + p ≤ base Ns Nd ky y + q) : before kx x ky y := by
  cases kx <;> cases ky <;> simp only [owns, Kind.dim, base, before] at * <;> omega

end SD
