import Verif.Model.Layout
import Verif.Model.Green

/-!
# `generate_Minfinity` and `generate_Minfinity_loop`
-/

set_option autoImplicit false

namespace SD

/-- Displacement and distance of a pair of beads after the overlap rescaling:
`functions/generate_Minfinity.py` lines 358-365. -/
noncomputable def minfRS (r0 : Vec3) (a1 a2 : ℝ) : Vec3 × ℝ :=
  let s := norm3 r0
  if s > 1 / 10 ^ 8 ∧ 2 * s / (a1 + a2) < 2.001 then
    let ss_out := 2.001 * (a1 + a2) / 2
    (fun i => r0 i * ss_out / s, ss_out)
  else (r0, s)

/-- The 3 by 3 block `[[M11(r[i], r[j], ...)]]` of `functions/generate_Minfinity.py` lines 378-380,
441-443, 461-463, 479-481, 488-490, 496-498. -/
noncomputable def blkM11 (r : Vec3) (s a1 a2 c mu : ℝ) (i j : ℕ) : ℝ :=
  M11 (r (f3 i)) (r (f3 j)) s a1 a2 (f3 i) (f3 j) c mu

/-- The sphere-sphere branch: `functions/generate_Minfinity.py` lines 373-434. -/
noncomputable def minfSphereSphere (D : NDMat) (K : Coords) (r : Vec3) (s a1 a2 c mu : ℝ) : NDMat :=
  let D := writeAt D K.A 3 3 (blkM11 r s a1 a2 c mu)
  let D := writeAt D K.Bt 3 3 fun i j => M12 r s a1 a2 (f3 i) (f3 j) c mu
  let D := writeAt D K.C 3 3 fun i j => M22 r s a1 a2 (f3 i) (f3 j) c mu
  let D := (List.range 3).foldl (fun D i =>
    writeAt D (K.Gt.1 + i, K.Gt.2) 1 5 fun _ j => con_M13_row r s a1 a2 (f3 i) c mu (f5 j)) D
  let D := (List.range 3).foldl (fun D i =>
    writeAt D (K.Ht.1 + i, K.Ht.2) 1 5 fun _ j => con_M23_row r s a1 a2 (f3 i) c mu (f5 j)) D
  let D := if s ≤ eps10 then
      (List.range 5).foldl (fun D i =>
        writeAt D (K.M.1 + i, K.M.2 + i) 1 1 fun _ _ => 1 / (20 / 3 * Real.pi * mu * a1 ^ 3)) D
    else
      writeAt D K.M 5 5 fun i j =>
        condense55 (fun i j k l => M33 r s a1 a2 i j k l c mu) (f5 i) (f5 j)
  if a1 = a2 then
    let D := writeAt D K.Bt21 3 3 fun i j => -D.get (K.Bt.1 + i) (K.Bt.2 + j)
    let D := writeAt D K.Gt21 3 5 fun i j => -D.get (K.Gt.1 + i) (K.Gt.2 + j)
    writeAt D K.Ht21 3 5 fun i j => D.get (K.Ht.1 + i) (K.Ht.2 + j)
  else
    let D := writeAt D K.Bt21 3 3 fun i j => M12 (-r) s a2 a1 (f3 i) (f3 j) c mu
    (List.range 3).foldl (fun D i =>
      let D := writeAt D (K.Gt21.1 + i, K.Gt21.2) 1 5 fun _ j =>
        con_M13_row (-r) s a2 a1 (f3 i) c mu (f5 j)
      writeAt D (K.Ht21.1 + i, K.Ht21.2) 1 5 fun _ j =>
        con_M23_row (-r) s a2 a1 (f3 i) c mu (f5 j)) D

/-- The sphere-bead branches: `functions/generate_Minfinity.py` lines 436-454 with the corners
`M14_c, M24_c, M34_c`, and lines 457-472 with `M15_c, M25_c, M35_c`. -/
noncomputable def minfSphereBead (D : NDMat) (K1 K2 K3 : ℕ × ℕ) (r : Vec3) (s a1 a2 c mu : ℝ) :
    NDMat :=
  let mr := -r
  let D := writeAt D K1 3 3 (blkM11 r s a1 a2 c mu)
  let D := writeAt D K2 3 3 fun i j => M12 mr s a2 a1 (f3 j) (f3 i) c mu
  writeAt D K3 5 3 fun i j =>
    condense53 (fun i j k => M13 mr s a2 a1 i j k c mu) (f5 i) (f3 j)

/-- The body of the pair loop: `functions/generate_Minfinity.py` lines 353-498. `bb` is
`bead_bead_interactions` of `settings.py`. -/
noncomputable def minfStep (P : PosData) (c mu : ℝ) (bb : Bool) (D : NDMat) (uv : ℕ × ℕ) : NDMat :=
  let a1_index := uv.1
  let a2_index := uv.2
  let r0 := P.beadPos a1_index - P.beadPos a2_index
  let a1 := P.beadSize a1_index
  let a2 := P.beadSize a2_index
  let r := (minfRS r0 a1 a2).1
  let s := (minfRS r0 a1 a2).2
  let K := submatrix_coords_tuple a1_index a2_index P.Ns P.Nd
  if is_sphere a1_index P.Ns && is_sphere a2_index P.Ns then
    minfSphereSphere D K r s a1 a2 c mu
  else if is_sphere a1_index P.Ns && is_dumbbell_bead_1 a2_index P.Ns P.Nd then
    minfSphereBead D K.M14 K.M24 K.M34 r s a1 a2 c mu
  else if is_sphere a1_index P.Ns then
    minfSphereBead D K.M15 K.M25 K.M35 r s a1 a2 c mu
  else if is_dumbbell_bead_1 a1_index P.Ns P.Nd && is_dumbbell_bead_1 a2_index P.Ns P.Nd then
    if bb || a1_index == a2_index then writeAt D K.M44 3 3 (blkM11 r s a1 a2 c mu) else D
  else if is_dumbbell_bead_1 a1_index P.Ns P.Nd && is_dumbbell_bead_2 a2_index P.Ns P.Nd then
    if bb then writeAt D K.M45 3 3 (blkM11 r s a1 a2 c mu) else D
  else
    if bb || a1_index == a2_index then writeAt D K.M55 3 3 (blkM11 r s a1 a2 c mu) else D

/-- `generate_Minfinity_loop`: `functions/generate_Minfinity.py` lines 331-503. -/
noncomputable def generate_Minfinity_loop (D0 : NDMat) (P : PosData) (c mu : ℝ) (bb : Bool) :
    NDMat :=
  symmetrise ((pairs (P.Ns + 2 * P.Nd)).foldl (minfStep P c mu bb) D0)

/-- The coordinate list of the sparse matrix `L`: `functions/generate_Minfinity.py` lines 311-319,
as triples (row, column, value). -/
noncomputable def dumbbellLEntries (Ns Nd : ℕ) : List (ℕ × ℕ × ℝ) :=
  let Lrow := List.range (11 * Ns + 6 * Nd) ++ (List.range (3 * Nd)).map (· + 11 * Ns)
    ++ (List.range (3 * Nd)).map (· + 11 * Ns + 3 * Nd)
  let Lcol := List.range (11 * Ns + 6 * Nd) ++ (List.range (3 * Nd)).map (· + 11 * Ns + 3 * Nd)
    ++ (List.range (3 * Nd)).map (· + 11 * Ns)
  let Ldata : List ℝ := List.replicate (11 * Ns) 1 ++ List.replicate (9 * Nd) 0.5
    ++ List.replicate (3 * Nd) (-0.5)
  Lrow.zip (Lcol.zip Ldata)

/-- `coo_matrix((data, (row, col)), shape=(n, n))`, with repeated coordinates summed:
`functions/generate_Minfinity.py` lines 320-322, `functions/generate_R2Bexact.py` lines 330-332. -/
noncomputable def cooMatrix (n : ℕ) (es : List (ℕ × ℕ × ℝ)) : NDMat :=
  ⟨n, n, fun i j => (es.map fun e => if e.1 = i ∧ e.2.1 = j then e.2.2 else 0).sum⟩

/-- `generate_Minfinity`: `functions/generate_Minfinity.py` lines 267-327. Returned without the
human-readable name. -/
noncomputable def generate_Minfinity (P : PosData) (mu : ℝ) (bb : Bool) : NDMat :=
  let n := 11 * P.Ns + 6 * P.Nd
  let c := 1 / (8 * Real.pi * mu)
  let M := generate_Minfinity_loop (NDMat.zeros n n) P c mu bb
  if P.Nd > 0 then
    let L := cooMatrix n (dumbbellLEntries P.Ns P.Nd)
    let R := L.transpose
    (L.dot M).dot R
  else M

end SD
