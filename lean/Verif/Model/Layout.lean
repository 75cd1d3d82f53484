import Verif.Model.Arr
import Verif.Model.SimTools

/-!
# Particle data and the placement of pair blocks in grand matrices
-/

set_option autoImplicit false

namespace SD

/-- `posdata` after `posdata_data`: `functions/shared.py` lines 192-218. Arrays of particle data are
functions of the particle number, only used below `Ns` (spheres) or `Nd` (dumbbells). The sphere
rotation vectors are not part of this record: the grand matrices do not use them. -/
structure PosData where
  Ns : ℕ
  Nd : ℕ
  sphereSize : ℕ → ℝ
  spherePos : ℕ → Vec3
  dumbSize : ℕ → ℝ
  dumbPos : ℕ → Vec3
  dumbDx : ℕ → Vec3

/-- `bead_positions`: `functions/generate_Minfinity.py` lines 288-290 (spheres, then the first beads
of the dumbbells, then the second beads). -/
noncomputable def PosData.beadPos (P : PosData) (k : ℕ) : Vec3 :=
  if k < P.Ns then P.spherePos k
  else if k < P.Ns + P.Nd then P.dumbPos (k - P.Ns) - (0.5 : ℝ) • P.dumbDx (k - P.Ns)
  else P.dumbPos (k - P.Ns - P.Nd) + (0.5 : ℝ) • P.dumbDx (k - P.Ns - P.Nd)

/-- `bead_sizes`: `functions/generate_Minfinity.py` line 291. -/
def PosData.beadSize (P : PosData) (k : ℕ) : ℝ :=
  if k < P.Ns then P.sphereSize k
  else if k < P.Ns + P.Nd then P.dumbSize (k - P.Ns)
  else P.dumbSize (k - P.Ns - P.Nd)

/-- `is_sphere(a_index, num_spheres)`: `functions/shared.py` lines 262-263. -/
def is_sphere (a Ns : ℕ) : Bool := a < Ns

/-- `is_dumbbell_bead_1(a_index, num_spheres, num_dumbbells)`: `functions/shared.py` lines 252-253. -/
def is_dumbbell_bead_1 (a Ns Nd : ℕ) : Bool := a ≥ Ns && a < Ns + Nd

/-- `is_dumbbell_bead_2(a_index, num_spheres, num_dumbbells)`: `functions/shared.py` lines 257-258. -/
def is_dumbbell_bead_2 (a Ns Nd : ℕ) : Bool := a ≥ Ns + Nd

/-- The result of `submatrix_coords_tuple`: `functions/shared.py` lines 186-189. -/
structure Coords where
  A : ℕ × ℕ
  Bt : ℕ × ℕ
  Bt21 : ℕ × ℕ
  Gt : ℕ × ℕ
  Gt21 : ℕ × ℕ
  C : ℕ × ℕ
  Ht : ℕ × ℕ
  Ht21 : ℕ × ℕ
  M : ℕ × ℕ
  M14 : ℕ × ℕ
  M24 : ℕ × ℕ
  M34 : ℕ × ℕ
  M44 : ℕ × ℕ
  M15 : ℕ × ℕ
  M25 : ℕ × ℕ
  M35 : ℕ × ℕ
  M45 : ℕ × ℕ
  M55 : ℕ × ℕ

/-- `submatrix_coords_tuple(a1_index, a2_index, num_spheres, num_dumbbells)`: `functions/shared.py`
lines 149-189. Simplification: the bead offsets `a_index - num_spheres` use truncated subtraction;
they are only used where the index is at least `num_spheres` (`num_spheres + num_dumbbells`). -/
def submatrix_coords_tuple (a1 a2 Ns Nd : ℕ) : Coords :=
  let R1 := a1 * 3
  let R2 := 3 * Ns + a1 * 3
  let R3 := 6 * Ns + a1 * 5
  let C1 := a2 * 3
  let C2 := 3 * Ns + a2 * 3
  let C3 := 6 * Ns + a2 * 5
  let a1d := a1 - Ns
  let a2d := a2 - Ns
  let R4 := 11 * Ns + a1d * 3
  let C4 := 11 * Ns + a2d * 3
  let a1d2 := a1 - Ns - Nd
  let a2d2 := a2 - Ns - Nd
  let R5 := 11 * Ns + 3 * Nd + a1d2 * 3
  let C5 := 11 * Ns + 3 * Nd + a2d2 * 3
  { A := (R1, C1)
    Bt := (R1, C2)
    Bt21 := (C1, R2)
    Gt := (R1, C3)
    Gt21 := (C1, R3)
    C := (R2, C2)
    Ht := (R2, C3)
    Ht21 := (C2, R3)
    M := (R3, C3)
    M14 := (R1, C4)
    M24 := (R2, C4)
    M34 := (R3, C4)
    M44 := (R4, C4)
    M15 := (R1, C5)
    M25 := (R2, C5)
    M35 := (R3, C5)
    M45 := (R4, C5)
    M55 := (R5, C5) }

/-- The list `[(u, v) for u in range(n) for v in range(u, n)]`:
`functions/generate_Minfinity.py` lines 353-355. -/
def pairs (n : ℕ) : List (ℕ × ℕ) :=
  (List.range n).flatMap fun u => (List.range' u (n - u)).map fun v => (u, v)

/-- The write `D[r:r+h, c:c+w] = f`, e.g. `functions/generate_Minfinity.py` lines 377-380. -/
def writeAt (D : NDMat) (rc : ℕ × ℕ) (h w : ℕ) (f : ℕ → ℕ → ℝ) : NDMat :=
  D.setBlock rc.1 (rc.1 + h) rc.2 (rc.2 + w) ⟨h, w, f⟩

/-- `np.triu(M) + np.triu(M, k=1).transpose()`: `functions/generate_Minfinity.py` line 501,
`functions/generate_R2Bexact.py` line 661. -/
noncomputable def symmetrise (D : NDMat) : NDMat :=
  ⟨D.rows, D.cols, fun i j =>
    (if i ≤ j then D.get i j else 0) + (if j + 1 ≤ i then D.get j i else 0)⟩

/-- A `range(3)` counter used as a coordinate index (the loops `for i in range(3)` of
`functions/generate_Minfinity.py` lines 378-380). -/
def f3 (i : ℕ) : Fin 3 := Fin.ofNat 3 i

/-- A `range(5)` counter used as a condensed index (the loops `for i in range(5)` of
`functions/generate_Minfinity.py` lines 401-402). -/
def f5 (i : ℕ) : Fin 5 := Fin.ofNat 5 i

end SD
