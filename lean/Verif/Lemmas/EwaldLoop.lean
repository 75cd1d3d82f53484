import Verif.Lemmas.EwaldParity
import Verif.Lemmas.Minfinity

/-!
# Every entry of the periodic far-field mobility matrix
-/

set_option autoImplicit false

namespace SD.Ewald

open Spec

/-! ## Parity -/

theorem D_J_neg (r : Vec3) (s : ℝ) (l i j : Fin 3) (e : Fin 7 → ℝ) : D_J (-r) s l i j e = -D_J r s l i j e := by
  simp only [D_J, DLap_rerfclr, DDD_rerfclr, Pi.neg_apply]; ring

theorem DD_J_neg (r : Vec3) (s : ℝ) (m l i j : Fin 3) (e : Fin 7 → ℝ) :
    DD_J (-r) s m l i j e = DD_J r s m l i j e := by
  simp only [DD_J, DDLap_rerfclr, DDDD_rerfclr, Pi.neg_apply]; ring

theorem DLap_J_neg (r : Vec3) (s : ℝ) (k i j : Fin 3) (e : Fin 7 → ℝ) :
    DLap_J (-r) s k i j e = -DLap_J r s k i j e := by
  simp only [DLap_J, DLapLap_rerfclr, DDDLap_rerfclr, Pi.neg_apply]; ring

theorem DDLap_J_neg (r : Vec3) (s : ℝ) (l k i j : Fin 3) (e : Fin 7 → ℝ) :
    DDLap_J (-r) s l k i j e = DDLap_J r s l k i j e := by
  simp only [DDLap_J, DDLapLap_rerfclr, DDDDLap_rerfclr, Pi.neg_apply]; ring

theorem btr_neg (r : Vec3) (s a1 a2 : ℝ) (i j : Fin 3) (e : Fin 7 → ℝ) (c mu : ℝ) :
    btr (-r) s a1 a2 i j e c mu = -btr r s a1 a2 i j e c mu := by
  simp only [btr, R, Lap_R, D_J_neg, DLap_J_neg]
  split_ifs <;> ring

theorem gtr_neg (r : Vec3) (s a1 a2 : ℝ) (i j k : Fin 3) (e : Fin 7 → ℝ) (c mu : ℝ) :
    gtr (-r) s a1 a2 i j k e c mu = -gtr r s a1 a2 i j k e c mu := by
  simp only [gtr, K, Lap_K, D_J_neg, DLap_J_neg]
  split_ifs <;> ring

theorem htr_neg (r : Vec3) (s a1 a2 : ℝ) (i j k : Fin 3) (e : Fin 7 → ℝ) (c mu : ℝ) :
    htr (-r) s a1 a2 i j k e c mu = htr r s a1 a2 i j k e c mu := by
  simp only [htr, D_K, DLap_K, DD_J_neg, DDLap_J_neg, Pi.neg_apply, abs_neg]

theorem sum_turn {X : List Vec3} (h : (X.map fun x => -x).Perm X) (f : Vec3 → ℝ) (r : Vec3) :
    (X.map fun x => f (-r + x)).sum = (X.map fun x => f (-(r + x))).sum := by
  rw [← sum_flip h fun x => f (-r + x)]
  congr 1
  refine List.map_congr_left fun x _ => ?_
  rw [neg_add]

theorem list_sum_neg (X : List Vec3) (f : Vec3 → ℝ) : (X.map fun x => -f x).sum = -(X.map f).sum := by
  induction X with
  | nil => simp
  | cons x X ih => simp only [List.map_cons, List.sum_cons, ih]; ring

theorem dot3_neg (k r : Vec3) : dot3 k (-r) = -dot3 k r := by
  simp only [dot3, Pi.neg_apply]; ring

section
variable {W : Lattice} (hW : (W.X.map fun x => -x).Perm W.X) (r : Vec3) (s a1 a2 c mu : ℝ)
include hW

theorem M12_neg (i j : Fin 3) : M12 W i j (-r) s a1 a2 c mu = -M12 W i j r s a1 a2 c mu := by
  unfold M12
  split_ifs
  · rw [sum_turn hW fun y => btr y (norm3 y) a1 a2 i j (generate_erfcs (norm3 y) W.lamb) c mu]
    simp only [norm3_neg, btr_neg, list_sum_neg]
  · simp

theorem M13_neg (i j k : Fin 3) : M13 W i j k (-r) s a1 a2 c mu = -M13 W i j k r s a1 a2 c mu := by
  unfold M13
  split_ifs
  · rw [sum_turn hW fun y => gtr y (norm3 y) a1 a2 i j k (generate_erfcs (norm3 y) W.lamb) c mu]
    simp only [norm3_neg, gtr_neg, list_sum_neg]
  · simp

theorem M23_neg (i j k : Fin 3) : M23 W i j k (-r) s a1 a2 c mu = M23 W i j k r s a1 a2 c mu := by
  unfold M23
  split_ifs
  · rw [sum_turn hW fun y => htr y (norm3 y) a1 a2 i j k (generate_erfcs (norm3 y) W.lamb) c mu]
    simp only [norm3_neg, htr_neg, dot3_neg, Real.cos_neg]
  · rfl

theorem con_M13_row_neg (i : Fin 3) (p : Fin 5) :
    con_M13_row W i (-r) s a1 a2 c mu p = -con_M13_row W i r s a1 a2 c mu p := by
  simp only [con_M13_row, M13_neg hW]
  fin_cases p <;> simp <;> ring

theorem con_M23_row_neg (i : Fin 3) :
    con_M23_row W i (-r) s a1 a2 c mu = con_M23_row W i r s a1 a2 c mu := by
  simp only [con_M23_row, M23_neg hW]

end

/-! ## The value of each block -/

/-- The block for the row group `kx` of bead `x` and the column group `ky` of bead `y`, with
`kx` not after `ky`. -/
noncomputable def pVal (W : Lattice) (P : PosData) (c mu : ℝ) (kx : Kind) (x : ℕ) (ky : Kind) (y p q : ℕ) : ℝ :=
  let r := rr P x y
  let s := ss P x y
  let a := P.beadSize x
  let b := P.beadSize y
  match kx, ky with
  | .F, .T => M12 W (f3 p) (f3 q) r s a b c mu
  | .F, .S => con_M13_row W (f3 p) r s a b c mu (f5 q)
  | .T, .T => M22 W (f3 p) (f3 q) r s a b c mu
  | .T, .S => con_M23_row W (f3 p) r s a b c mu (f5 q)
  | .S, .S => condense55 (fun i j k l => M33 W i j k l r s a b c mu) (f5 p) (f5 q)
  | .T, _ => M12 W (f3 q) (f3 p) (-r) s a b c mu
  | .S, _ => condense53 (fun i j k => M13 W i j k (-r) s a b c mu) (f5 p) (f3 q)
  | _, _ => blkM11 W r s a b c mu p q

theorem pVal_FF (W : Lattice) (P : PosData) (c mu : ℝ) (x y : ℕ) : pVal W P c mu .F x .F y =
    blkM11 W (rr P x y) (ss P x y) (P.beadSize x) (P.beadSize y) c mu := rfl
theorem pVal_FT (W : Lattice) (P : PosData) (c mu : ℝ) (x y : ℕ) : pVal W P c mu .F x .T y = fun p q =>
    M12 W (f3 p) (f3 q) (rr P x y) (ss P x y) (P.beadSize x) (P.beadSize y) c mu := rfl
theorem pVal_FS (W : Lattice) (P : PosData) (c mu : ℝ) (x y : ℕ) : pVal W P c mu .F x .S y = fun p q =>
    con_M13_row W (f3 p) (rr P x y) (ss P x y) (P.beadSize x) (P.beadSize y) c mu (f5 q) := rfl
theorem pVal_TT (W : Lattice) (P : PosData) (c mu : ℝ) (x y : ℕ) : pVal W P c mu .T x .T y = fun p q =>
    M22 W (f3 p) (f3 q) (rr P x y) (ss P x y) (P.beadSize x) (P.beadSize y) c mu := rfl
theorem pVal_TS (W : Lattice) (P : PosData) (c mu : ℝ) (x y : ℕ) : pVal W P c mu .T x .S y = fun p q =>
    con_M23_row W (f3 p) (rr P x y) (ss P x y) (P.beadSize x) (P.beadSize y) c mu (f5 q) := rfl

/-- The entry is written at all. -/
def pWritten (P : PosData) (bb : Bool) (kx : Kind) (x : ℕ) (ky : Kind) (y _p _q : ℕ) : Prop :=
  match kx, ky with
  | .B1, .B1 => bb = true ∨ x = y
  | .B1, .B2 => bb = true ∨ x + P.Nd = y
  | .B2, .B2 => bb = true ∨ x = y
  | _, _ => True

/-- The equal-size shortcut writes the mirror blocks. -/
theorem shortcut_eq (W : Lattice) (hW : (W.X.map fun x => -x).Perm W.X) (P : PosData) (c mu : ℝ) (X : NDMat) {u v : ℕ} (hu : u < P.Ns) (hv : v < P.Ns)
    (he : P.beadSize u = P.beadSize v)
    (h1 : ∀ i < 3, ∀ j < 3, X.get (base P.Ns P.Nd .F u + i) (base P.Ns P.Nd .T v + j)
      = pVal W P c mu .F u .T v i j)
    (h2 : ∀ i < 3, ∀ j < 5, X.get (base P.Ns P.Nd .F u + i) (base P.Ns P.Nd .S v + j)
      = pVal W P c mu .F u .S v i j)
    (h3 : ∀ i < 3, ∀ j < 5, X.get (base P.Ns P.Nd .T u + i) (base P.Ns P.Nd .S v + j)
      = pVal W P c mu .T u .S v i j) :
    (let D := writeAt X (base P.Ns P.Nd .F v, base P.Ns P.Nd .T u) 3 3 fun i j =>
      -X.get (base P.Ns P.Nd .F u + i) (base P.Ns P.Nd .T v + j)
     let D := writeAt D (base P.Ns P.Nd .F v, base P.Ns P.Nd .S u) 3 5 fun i j =>
      -D.get (base P.Ns P.Nd .F u + i) (base P.Ns P.Nd .S v + j)
     writeAt D (base P.Ns P.Nd .T v, base P.Ns P.Nd .S u) 3 5 fun i j =>
      D.get (base P.Ns P.Nd .T u + i) (base P.Ns P.Nd .S v + j))
    = writeAt (writeAt (writeAt X (base P.Ns P.Nd .F v, base P.Ns P.Nd .T u) 3 3
        (pVal W P c mu .F v .T u)) (base P.Ns P.Nd .F v, base P.Ns P.Nd .S u) 3 5
        (pVal W P c mu .F v .S u)) (base P.Ns P.Nd .T v, base P.Ns P.Nd .S u) 3 5
        (pVal W P c mu .T v .S u) := by
  have hr := rr_swap P u v
  have hs := ss_swap P u v
  have e1 : writeAt X (base P.Ns P.Nd .F v, base P.Ns P.Nd .T u) 3 3 (fun i j =>
      -X.get (base P.Ns P.Nd .F u + i) (base P.Ns P.Nd .T v + j))
      = writeAt X (base P.Ns P.Nd .F v, base P.Ns P.Nd .T u) 3 3 (pVal W P c mu .F v .T u) := by
    apply writeAt_congr
    intro i hi j hj
    rw [h1 i hi j hj, pVal_FT, pVal_FT, hr, hs, he]
    simp only [M12_neg hW]
  dsimp only
  rw [e1]
  generalize hY : writeAt X (base P.Ns P.Nd .F v, base P.Ns P.Nd .T u) 3 3 (pVal W P c mu .F v .T u)
    = Y
  have e2 : writeAt Y (base P.Ns P.Nd .F v, base P.Ns P.Nd .S u) 3 5 (fun i j =>
      -Y.get (base P.Ns P.Nd .F u + i) (base P.Ns P.Nd .S v + j))
      = writeAt Y (base P.Ns P.Nd .F v, base P.Ns P.Nd .S u) 3 5 (pVal W P c mu .F v .S u) := by
    apply writeAt_congr
    intro i hi j hj
    rw [← hY, writeAt_get (k1 := .F) (u1 := v) (k2 := .T) (u2 := u) (kx := .F) (ky := .S) hv hu hu hv
      hi hj X _ 3 3 rfl rfl _ rfl]
    rw [if_neg (by simp), h2 i hi j hj, pVal_FS, pVal_FS, hr, hs, he]
    simp only [con_M13_row_neg hW]
  rw [e2]
  apply writeAt_congr
  intro i hi j hj
  rw [writeAt_get (k1 := .F) (u1 := v) (k2 := .S) (u2 := u) (kx := .T) (ky := .S) hv hu hu hv
      hi hj _ _ 3 5 rfl rfl _ rfl, if_neg (by simp), ← hY]
  rw [writeAt_get (k1 := .F) (u1 := v) (k2 := .T) (u2 := u) (kx := .T) (ky := .S) hv hu hu hv
      hi hj X _ 3 3 rfl rfl _ rfl, if_neg (by simp), h3 i hi j hj, pVal_TS, pVal_TS, hr, hs, he]
  simp only [con_M23_row_neg hW]

/-- Everything the sphere-sphere branch writes, in the order it is written. -/
theorem sphereSphere_eq (W : Lattice) (hW : (W.X.map fun x => -x).Perm W.X) (P : PosData) (c mu : ℝ) (D : NDMat) {u v : ℕ}
    (hu : u < P.Ns) (hv : v < P.Ns) :
    minfSphereSphere W D (submatrix_coords_tuple u v P.Ns P.Nd) (rr P u v) (ss P u v)
      (P.beadSize u) (P.beadSize v) c mu
    = let B := base P.Ns P.Nd
      let V := pVal W P c mu
      let D := writeAt D (B .F u, B .F v) 3 3 (V .F u .F v)
      let D := writeAt D (B .F u, B .T v) 3 3 (V .F u .T v)
      let D := writeAt D (B .T u, B .T v) 3 3 (V .T u .T v)
      let D := writeAt D (B .F u, B .S v) 3 5 (V .F u .S v)
      let D := writeAt D (B .T u, B .S v) 3 5 (V .T u .S v)
      let D := writeAt D (B .S u, B .S v) 5 5 (V .S u .S v)
      let D := writeAt D (B .F v, B .T u) 3 3 (V .F v .T u)
      let D := writeAt D (B .F v, B .S u) 3 5 (V .F v .S u)
      writeAt D (B .T v, B .S u) 3 5 (V .T v .S u) := by
  unfold minfSphereSphere
  have hr := rr_swap P u v
  have hs := ss_swap P u v
  generalize hK : submatrix_coords_tuple u v P.Ns P.Nd = K
  have kBt21 : K.Bt21 = (base P.Ns P.Nd .F v, base P.Ns P.Nd .T u) := by subst hK; rfl
  have kGt21 : K.Gt21 = (base P.Ns P.Nd .F v, base P.Ns P.Nd .S u) := by subst hK; rfl
  have kHt21 : K.Ht21 = (base P.Ns P.Nd .T v, base P.Ns P.Nd .S u) := by subst hK; rfl
  have kA : K.A = (base P.Ns P.Nd .F u, base P.Ns P.Nd .F v) := by subst hK; rfl
  have kBt : K.Bt = (base P.Ns P.Nd .F u, base P.Ns P.Nd .T v) := by subst hK; rfl
  have kC : K.C = (base P.Ns P.Nd .T u, base P.Ns P.Nd .T v) := by subst hK; rfl
  have kGt : K.Gt = (base P.Ns P.Nd .F u, base P.Ns P.Nd .S v) := by subst hK; rfl
  have kHt : K.Ht = (base P.Ns P.Nd .T u, base P.Ns P.Nd .S v) := by subst hK; rfl
  have kM : K.M = (base P.Ns P.Nd .S u, base P.Ns P.Nd .S v) := by subst hK; rfl
  simp only [kA, kBt, kBt21, kGt, kGt21, kC, kHt, kHt21, kM]
  have hG := fun D => rows_eq 3 D (base P.Ns P.Nd .F u) (base P.Ns P.Nd .S v) 5 fun i j =>
    con_M13_row W (f3 i) (rr P u v) (ss P u v) (P.beadSize u) (P.beadSize v) c mu (f5 j)
  have hH := fun D => rows_eq 3 D (base P.Ns P.Nd .T u) (base P.Ns P.Nd .S v) 5 fun i j =>
    con_M23_row W (f3 i) (rr P u v) (ss P u v) (P.beadSize u) (P.beadSize v) c mu (f5 j)
  have hG' := fun D => rows_eq 3 D (base P.Ns P.Nd .F v) (base P.Ns P.Nd .S u) 5 fun i j =>
    con_M13_row W (f3 i) (-rr P u v) (ss P u v) (P.beadSize v) (P.beadSize u) c mu (f5 j)
  have hH' := fun D => rows_eq 3 D (base P.Ns P.Nd .T v) (base P.Ns P.Nd .S u) 5 fun i j =>
    con_M23_row W (f3 i) (-rr P u v) (ss P u v) (P.beadSize v) (P.beadSize u) c mu (f5 j)
  simp only [hG, hH, hG', hH']
  have hSS : ∀ D : NDMat, writeAt D (base P.Ns P.Nd .S u, base P.Ns P.Nd .S v) 5 5 (fun i j =>
      condense55 (fun i j k l => M33 W i j k l (rr P u v) (ss P u v) (P.beadSize u) (P.beadSize v) c mu)
        (f5 i) (f5 j)) = writeAt D (base P.Ns P.Nd .S u, base P.Ns P.Nd .S v) 5 5 (pVal W P c mu .S u .S v) :=
    fun D => rfl
  have hS1 : ∀ D : NDMat, ∀ i j, i < 6 * P.Ns → (writeAt D (base P.Ns P.Nd .S u, base P.Ns P.Nd .S v) 5 5
          (pVal W P c mu .S u .S v)).get i j = D.get i j := by
    intro D i j hi
    unfold writeAt; rw [NDMat.setBlock_out]
    simp only [base]; omega
  simp only [hSS]
  have oF : ∀ k, k = Kind.F ∨ k = Kind.T ∨ k = Kind.S → owns P.Ns P.Nd k u ∧ owns P.Ns P.Nd k v := by
    rintro k (rfl | rfl | rfl) <;> exact ⟨hu, hv⟩
  have oFu := (oF .F (by simp)).1
  have oFv := (oF .F (by simp)).2
  have oTu := (oF .T (by simp)).1
  have oTv := (oF .T (by simp)).2
  have oSu := (oF .S (by simp)).1
  have oSv := (oF .S (by simp)).2
  by_cases he : P.beadSize u = P.beadSize v
  · rw [if_pos he]
    have L1 : ∀ i < 3, base P.Ns P.Nd .F u + i < 6 * P.Ns := by
      intro i hi; simp only [base]; omega
    have L2 : ∀ i < 3, base P.Ns P.Nd .T u + i < 6 * P.Ns := by
      intro i hi; simp only [base]; omega
    refine Eq.trans (shortcut_eq W hW P c mu _ hu hv he ?_ ?_ ?_) ?_
    · intro i hi j hj
      rw [hS1 _ _ _ (L1 i hi),
        writeAt_get (kx := .F) (ky := .T) oTu oSv oFu oTv hi hj _ _ 3 5 rfl rfl _ rfl,
        if_neg (by simp),
        writeAt_get (kx := .F) (ky := .T) oFu oSv oFu oTv hi hj _ _ 3 5 rfl rfl _ rfl,
        if_neg (by simp),
        writeAt_get (kx := .F) (ky := .T) oTu oTv oFu oTv hi hj _ _ 3 3 rfl rfl _ rfl,
        if_neg (by simp),
        writeAt_get (kx := .F) (ky := .T) oFu oTv oFu oTv hi hj _ _ 3 3 rfl rfl _ rfl,
        if_pos (by simp)]
      rfl
    · intro i hi j hj
      rw [hS1 _ _ _ (L1 i hi),
        writeAt_get (kx := .F) (ky := .S) oTu oSv oFu oSv hi hj _ _ 3 5 rfl rfl _ rfl,
        if_neg (by simp),
        writeAt_get (kx := .F) (ky := .S) oFu oSv oFu oSv hi hj _ _ 3 5 rfl rfl _ rfl,
        if_pos (by simp)]
      rfl
    · intro i hi j hj
      rw [hS1 _ _ _ (L2 i hi),
        writeAt_get (kx := .T) (ky := .S) oTu oSv oTu oSv hi hj _ _ 3 5 rfl rfl _ rfl,
        if_pos (by simp)]
      rfl
    · rfl
  · rw [if_neg he]
    simp only [pVal_FF, pVal_FT, pVal_FS, pVal_TT, pVal_TS, hr, hs]

open Classical in
theorem sphereSphere_get (W : Lattice) (hW : (W.X.map fun x => -x).Perm W.X) (P : PosData) (c mu : ℝ) (bb : Bool) (D : NDMat) {u v : ℕ} (huv : u ≤ v)
    (hu : u < P.Ns) (hv : v < P.Ns) {kx ky : Kind} {x y p q : ℕ}
    (hx : owns P.Ns P.Nd kx x) (hy : owns P.Ns P.Nd ky y) (hp : p < kx.dim) (hq : q < ky.dim)
    (hb : before kx x ky y) :
    (minfSphereSphere W D (submatrix_coords_tuple u v P.Ns P.Nd) (rr P u v) (ss P u v)
      (P.beadSize u) (P.beadSize v) c mu).get (base P.Ns P.Nd kx x + p) (base P.Ns P.Nd ky y + q)
    = if touches u v x y ∧ pWritten P bb kx x ky y p q then pVal W P c mu kx x ky y p q
      else D.get (base P.Ns P.Nd kx x + p) (base P.Ns P.Nd ky y + q) := by
  have oFu : owns P.Ns P.Nd .F u := hu
  have oFv : owns P.Ns P.Nd .F v := hv
  have oTu : owns P.Ns P.Nd .T u := hu
  have oTv : owns P.Ns P.Nd .T v := hv
  have oSu : owns P.Ns P.Nd .S u := hu
  have oSv : owns P.Ns P.Nd .S v := hv
  rw [sphereSphere_eq W hW P c mu D hu hv]
  dsimp only
  rw [writeAt_get oTv oSu hx hy hp hq _ _ 3 5 rfl rfl _ rfl,
    writeAt_get oFv oSu hx hy hp hq _ _ 3 5 rfl rfl _ rfl,
    writeAt_get oFv oTu hx hy hp hq _ _ 3 3 rfl rfl _ rfl]
  rw [writeAt_get oSu oSv hx hy hp hq _ _ 5 5 rfl rfl _ rfl,
    writeAt_get oTu oSv hx hy hp hq _ _ 3 5 rfl rfl _ rfl,
    writeAt_get oFu oSv hx hy hp hq _ _ 3 5 rfl rfl _ rfl,
    writeAt_get oTu oTv hx hy hp hq _ _ 3 3 rfl rfl _ rfl,
    writeAt_get oFu oTv hx hy hp hq _ _ 3 3 rfl rfl _ rfl,
    writeAt_get oFu oFv hx hy hp hq _ _ 3 3 rfl rfl _ rfl]
  unfold touches
  have key : ∀ (A W : Prop) (V E L : ℝ), (A → W → L = V) → (¬ A → L = E) → (A → ¬ W → L = E) →
      L = if A ∧ W then V else E := by
    intro A W V E L h1 h2 h3
    split_ifs with h
    · exact h1 h.1 h.2
    · by_cases hA : A
      · exact h3 hA (fun w => h ⟨hA, w⟩)
      · exact h2 hA
  apply key
  · intro hA hW
    cases kx <;> cases ky <;>
      simp only [reduceCtorEq, true_and, and_true, false_and, and_false, if_false, before, owns,
        pWritten] at hb hx hy hW ⊢
    case S.S =>
      have h2 : x = u ∧ y = v := by omega
      obtain ⟨rfl, rfl⟩ := h2
      simp
    case F.F =>
      have h2 : x = u ∧ y = v := by omega
      obtain ⟨rfl, rfl⟩ := h2
      simp
    case T.T =>
      have h2 : x = u ∧ y = v := by omega
      obtain ⟨rfl, rfl⟩ := h2
      simp
    case F.T =>
      rcases hA with ⟨rfl, rfl⟩ | ⟨rfl, rfl⟩
      · by_cases h : x = y ∧ y = x
        · obtain ⟨rfl, -⟩ := h; simp
        · rw [if_neg h]; simp
      · simp
    case F.S =>
      rcases hA with ⟨rfl, rfl⟩ | ⟨rfl, rfl⟩
      · by_cases h : x = y ∧ y = x
        · obtain ⟨rfl, -⟩ := h; simp
        · rw [if_neg h]; simp
      · simp
    case T.S =>
      rcases hA with ⟨rfl, rfl⟩ | ⟨rfl, rfl⟩
      · by_cases h : x = y ∧ y = x
        · obtain ⟨rfl, -⟩ := h; simp
        · rw [if_neg h]; simp
      · simp
    all_goals (exfalso; omega)
  · intro hA
    have h1 : ¬ (x = u ∧ y = v) := fun h => hA (Or.inl h)
    have h2 : ¬ (x = v ∧ y = u) := fun h => hA (Or.inr h)
    simp only [h1, h2, and_false, false_and, if_false]
  · intro hA hW
    cases kx <;> cases ky <;>
      simp only [reduceCtorEq, true_and, and_true, false_and, and_false, if_false, owns,
        pWritten, not_true] at hx hy hW ⊢

open Classical in
theorem sphereBead_get (W : Lattice) (hW : (W.X.map fun x => -x).Perm W.X) (P : PosData) (c mu : ℝ) (bb : Bool) (D : NDMat) {u v : ℕ} {kv : Kind}
    (hk : kv = .B1 ∨ kv = .B2)
    (hu : u < P.Ns) (hv : owns P.Ns P.Nd kv v) {kx ky : Kind} {x y p q : ℕ}
    (hx : owns P.Ns P.Nd kx x) (hy : owns P.Ns P.Nd ky y) (hp : p < kx.dim) (hq : q < ky.dim)
    (hb : before kx x ky y) (K1 K2 K3 : ℕ × ℕ)
    (h1 : K1 = (base P.Ns P.Nd .F u, base P.Ns P.Nd kv v))
    (h2 : K2 = (base P.Ns P.Nd .T u, base P.Ns P.Nd kv v))
    (h3 : K3 = (base P.Ns P.Nd .S u, base P.Ns P.Nd kv v)) :
    (minfSphereBead W D K1 K2 K3 (rr P u v) (ss P u v)
      (P.beadSize u) (P.beadSize v) c mu).get (base P.Ns P.Nd kx x + p) (base P.Ns P.Nd ky y + q)
    = if touches u v x y ∧ pWritten P bb kx x ky y p q then pVal W P c mu kx x ky y p q
      else D.get (base P.Ns P.Nd kx x + p) (base P.Ns P.Nd ky y + q) := by
  have oFu : owns P.Ns P.Nd .F u := hu
  have oTu : owns P.Ns P.Nd .T u := hu
  have oSu : owns P.Ns P.Nd .S u := hu
  have hd : 3 = kv.dim := by rcases hk with rfl | rfl <;> rfl
  unfold minfSphereBead
  dsimp only
  rw [writeAt_get oSu hv hx hy hp hq _ _ 5 3 rfl hd _ h3,
    writeAt_get oTu hv hx hy hp hq _ _ 3 3 rfl hd _ h2,
    writeAt_get oFu hv hx hy hp hq _ _ 3 3 rfl hd _ h1]
  have key : ∀ (A W : Prop) (V E L : ℝ), (A → W ∧ L = V) → (¬ A → L = E) →
      L = if A ∧ W then V else E := by
    intro A W V E L h1 h2
    split_ifs with h
    · exact (h1 h.1).2
    · exact h2 fun a => h ⟨a, (h1 a).1⟩
  apply key
  · intro hA
    unfold touches at hA
    rcases hk with rfl | rfl <;> cases kx <;> cases ky <;>
      simp only [owns, before] at hb hx hy hv <;>
      first
        | (exfalso; omega)
        | (have h : x = u ∧ y = v := by omega
           obtain ⟨rfl, rfl⟩ := h
           simp [pWritten, pVal])
  · intro hA
    have h1 : ¬ (x = u ∧ y = v) := fun h => hA (Or.inl h)
    simp only [h1, and_false, if_false]

open Classical in
theorem beadBead_get (W : Lattice) (hW : (W.X.map fun x => -x).Perm W.X) (P : PosData) (c mu : ℝ) (bb : Bool) (D : NDMat) {u v : ℕ} {ku kv : Kind}
    (hk : (ku = .B1 ∧ kv = .B1) ∨ (ku = .B1 ∧ kv = .B2) ∨ (ku = .B2 ∧ kv = .B2)) (huv : u ≤ v)
    (hu : owns P.Ns P.Nd ku u) (hv : owns P.Ns P.Nd kv v) {kx ky : Kind} {x y p q : ℕ}
    (hx : owns P.Ns P.Nd kx x) (hy : owns P.Ns P.Nd ky y) (hp : p < kx.dim) (hq : q < ky.dim)
    (hb : before kx x ky y) (K : ℕ × ℕ)
    (h1 : K = (base P.Ns P.Nd ku u, base P.Ns P.Nd kv v)) (w0 : Bool)
    (hw0 : w0 = true ↔ pWritten P bb ku u kv v 0 0) :
    (if w0 then writeAt D K 3 3 (blkM11 W (rr P u v) (ss P u v)
      (P.beadSize u) (P.beadSize v) c mu) else D).get
        (base P.Ns P.Nd kx x + p) (base P.Ns P.Nd ky y + q)
    = if touches u v x y ∧ pWritten P bb kx x ky y p q then pVal W P c mu kx x ky y p q
      else D.get (base P.Ns P.Nd kx x + p) (base P.Ns P.Nd ky y + q) := by
  have hd1 : 3 = ku.dim := by rcases hk with ⟨rfl, rfl⟩ | ⟨rfl, rfl⟩ | ⟨rfl, rfl⟩ <;> rfl
  have hd : 3 = kv.dim := by rcases hk with ⟨rfl, rfl⟩ | ⟨rfl, rfl⟩ | ⟨rfl, rfl⟩ <;> rfl
  have hg : (if w0 then writeAt D K 3 3 (blkM11 W (rr P u v) (ss P u v)
      (P.beadSize u) (P.beadSize v) c mu) else D).get
        (base P.Ns P.Nd kx x + p) (base P.Ns P.Nd ky y + q)
      = if ((kx = ku ∧ ky = kv) ∧ x = u ∧ y = v) ∧ w0 = true then blkM11 W (rr P u v) (ss P u v)
      (P.beadSize u) (P.beadSize v) c mu p q else
        D.get (base P.Ns P.Nd kx x + p) (base P.Ns P.Nd ky y + q) := by
    cases w0
    · simp
    · simp only [if_true, and_true]
      rw [writeAt_get hu hv hx hy hp hq _ _ 3 3 hd1 hd _ h1]
  rw [hg]
  have key : ∀ (A W : Prop) (V E L : ℝ), (A → W → L = V) → (¬ A → L = E) → (A → ¬ W → L = E) →
      L = if A ∧ W then V else E := by
    intro A W V E L h1 h2 h3
    split_ifs with h
    · exact h1 h.1 h.2
    · by_cases hA : A
      · exact h3 hA (fun w => h ⟨hA, w⟩)
      · exact h2 hA
  apply key
  · intro hA hm
    unfold touches at hA
    rcases hk with ⟨rfl, rfl⟩ | ⟨rfl, rfl⟩ | ⟨rfl, rfl⟩ <;> cases kx <;> cases ky <;>
      simp only [owns, before] at hb hx hy hv hu <;>
      first
        | (exfalso; omega)
        | (have h : x = u ∧ y = v := by omega
           obtain ⟨rfl, rfl⟩ := h
           rw [if_pos ⟨⟨⟨rfl, rfl⟩, rfl, rfl⟩, hw0.mpr hm⟩]
           rfl)
  · intro hA
    have h1 : ¬ (x = u ∧ y = v) := fun h => hA (Or.inl h)
    simp only [h1, and_false, false_and, if_false]
  · intro hA hm
    rw [if_neg]
    rintro ⟨⟨⟨rfl, rfl⟩, rfl, rfl⟩, w⟩
    exact hm (hw0.mp w)

open Classical in
/-- What one pass of the loop does to an entry. -/
theorem minfStep_get (W : Lattice) (hW : (W.X.map fun x => -x).Perm W.X) (P : PosData) (c mu : ℝ) (bb : Bool) (D : NDMat) {u v : ℕ} (huv : u ≤ v)
    (hvn : v < P.Ns + 2 * P.Nd) {kx ky : Kind} {x y p q : ℕ}
    (hx : owns P.Ns P.Nd kx x) (hy : owns P.Ns P.Nd ky y) (hp : p < kx.dim) (hq : q < ky.dim)
    (hb : before kx x ky y) :
    (minfStep W P c mu bb D (u, v)).get (base P.Ns P.Nd kx x + p) (base P.Ns P.Nd ky y + q)
    = if touches u v x y ∧ pWritten P bb kx x ky y p q then pVal W P c mu kx x ky y p q
      else D.get (base P.Ns P.Nd kx x + p) (base P.Ns P.Nd ky y + q) := by
  unfold minfStep
  simp only [is_sphere, is_dumbbell_bead_1, is_dumbbell_bead_2, Bool.and_eq_true, decide_eq_true_eq]
  rcases Nat.lt_or_ge u P.Ns with h1 | h1
  · rcases Nat.lt_or_ge v P.Ns with h2 | h2
    · rw [if_pos (by omega)]
      exact sphereSphere_get W hW P c mu bb D huv h1 h2 hx hy hp hq hb
    · rcases Nat.lt_or_ge v (P.Ns + P.Nd) with h3 | h3
      · rw [if_neg (by omega), if_pos (by omega)]
        exact sphereBead_get W hW P c mu bb D (kv := .B1) (Or.inl rfl) h1 ⟨h2, h3⟩ hx hy hp hq hb _ _ _
          rfl rfl rfl
      · rw [if_neg (by omega), if_neg (by omega), if_pos (by omega)]
        exact sphereBead_get W hW P c mu bb D (kv := .B2) (Or.inr rfl) h1 ⟨h3, hvn⟩ hx hy hp hq hb _ _ _
          rfl rfl rfl
  · rcases Nat.lt_or_ge u (P.Ns + P.Nd) with h2 | h2
    · rcases Nat.lt_or_ge v (P.Ns + P.Nd) with h3 | h3
      · rw [if_neg (by omega), if_neg (by omega), if_neg (by omega), if_pos (by omega)]
        exact beadBead_get W hW P c mu bb D (ku := .B1) (kv := .B1) (by simp) huv ⟨h1, h2⟩
          ⟨by omega, h3⟩ hx hy hp hq hb _ rfl _ (by cases bb <;> simp [pWritten] <;> omega)
      · rw [if_neg (by omega), if_neg (by omega), if_neg (by omega), if_neg (by omega),
          if_pos (by omega)]
        exact beadBead_get W hW P c mu bb D (ku := .B1) (kv := .B2) (by simp) huv ⟨h1, h2⟩
          ⟨h3, hvn⟩ hx hy hp hq hb _ rfl _ (by cases bb <;> simp [pWritten] <;> omega)
    · rw [if_neg (by omega), if_neg (by omega), if_neg (by omega), if_neg (by omega),
          if_neg (by omega)]
      exact beadBead_get W hW P c mu bb D (ku := .B2) (kv := .B2) (by simp) huv ⟨h2, by omega⟩
          ⟨by omega, hvn⟩ hx hy hp hq hb _ rfl _ (by cases bb <;> simp [pWritten] <;> omega)

open Classical in
/-- Every entry of the assembled matrix whose row group comes first. -/
theorem minfLoop_get (W : Lattice) (hW : (W.X.map fun x => -x).Perm W.X) (P : PosData) (c mu : ℝ) (bb : Bool) {kx ky : Kind} {x y p q : ℕ} (n m : ℕ)
    (hx : owns P.Ns P.Nd kx x) (hy : owns P.Ns P.Nd ky y) (hp : p < kx.dim) (hq : q < ky.dim)
    (hb : before kx x ky y) :
    ((pairs (P.Ns + 2 * P.Nd)).foldl (minfStep W P c mu bb) (NDMat.zeros n m)).get
        (base P.Ns P.Nd kx x + p) (base P.Ns P.Nd ky y + q)
    = if pWritten P bb kx x ky y p q then pVal W P c mu kx x ky y p q else 0 := by
  by_cases hw : pWritten P bb kx x ky y p q
  · rw [if_pos hw]
    apply foldl_get
    · rintro ⟨u, v⟩ huv D
      rw [mem_pairs] at huv
      rw [minfStep_get W hW P c mu bb D huv.1 huv.2 hx hy hp hq hb]
      split_ifs
      · exact Or.inl rfl
      · exact Or.inr rfl
    · have hxn := owns_lt hx
      have hyn := owns_lt hy
      rcases Nat.le_total x y with h | h
      · refine ⟨(x, y), mem_pairs.mpr ⟨h, hyn⟩, fun D => ?_⟩
        rw [minfStep_get W hW P c mu bb D h hyn hx hy hp hq hb, if_pos ⟨Or.inl ⟨rfl, rfl⟩, hw⟩]
      · refine ⟨(y, x), mem_pairs.mpr ⟨h, hxn⟩, fun D => ?_⟩
        rw [minfStep_get W hW P c mu bb D h hxn hx hy hp hq hb, if_pos ⟨Or.inr ⟨rfl, rfl⟩, hw⟩]
  · rw [if_neg hw, foldl_get_same]
    · rfl
    · rintro ⟨u, v⟩ huv D
      rw [mem_pairs] at huv
      rw [minfStep_get W hW P c mu bb D huv.1 huv.2 hx hy hp hq hb, if_neg (fun h => hw h.2)]

end SD.Ewald
