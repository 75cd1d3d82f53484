import Verif.Model.Minfinity
import Verif.Model.ClosePairs

/-!
# `functions/generate_R2Bexact.py`

Coordinate indices are `Fin 3`. The scalar table is a parameter: its numbers come from data files.
-/

set_option autoImplicit false

namespace SD

/-- `L1`: `functions/generate_R2Bexact.py` lines 27-29. -/
def L1 (d : Vec3) (i j : Fin 3) : ℝ := d i * d j

/-- `L2`: `functions/generate_R2Bexact.py` lines 33-35. -/
def L2 (d : Vec3) (i j : Fin 3) : ℝ := kron i j - d i * d j

/-- `L3`: `functions/generate_R2Bexact.py` lines 39-44. The filtered list comprehension is a sum with the
filter as a condition. -/
def L3 (d : Vec3) (i j : Fin 3) : ℝ :=
  if i = j then 0 else ∑ k : Fin 3, if k ≠ i ∧ k ≠ j then levi i j k * d k else 0

/-- `L4`: `functions/generate_R2Bexact.py` lines 48-50. -/
noncomputable def L4 (d : Vec3) (i j k : Fin 3) : ℝ := (d i * d j - kron i j / 3) * d k

/-- `L5`: `functions/generate_R2Bexact.py` lines 54-56. -/
def L5 (d : Vec3) (i j k : Fin 3) : ℝ := d i * kron j k + d j * kron i k - 2 * d i * d j * d k

/-- `L6`: `functions/generate_R2Bexact.py` lines 60-65. -/
def L6 (d : Vec3) (i j k : Fin 3) : ℝ :=
  (∑ l : Fin 3, if l ≠ i ∧ l ≠ k then levi i k l * d l * d j else 0)
    + ∑ l : Fin 3, if l ≠ k ∧ l ≠ j then levi j k l * d l * d i else 0

/-- `L7`: `functions/generate_R2Bexact.py` lines 69-73. -/
noncomputable def L7 (d : Vec3) (i j k l : Fin 3) : ℝ :=
  1.5 * (d i * d j - kron i j / 3) * (d k * d l - kron k l / 3)

/-- `L8`: `functions/generate_R2Bexact.py` lines 77-83. -/
noncomputable def L8 (d : Vec3) (i j k l : Fin 3) : ℝ :=
  0.5 * (d i * kron j l * d k + d j * kron i l * d k + d i * kron j k * d l + d j * kron i k * d l
    - 4 * d i * d j * d k * d l)

/-- `L9`: `functions/generate_R2Bexact.py` lines 87-98. -/
noncomputable def L9 (d : Vec3) (i j k l : Fin 3) : ℝ :=
  0.5 * (kron i k * kron j l + kron j k * kron i l - kron i j * kron k l + d i * d j * kron k l
    + kron i j * d k * d l - d i * kron j l * d k - d j * kron i l * d k - d i * kron j k * d l
    - d j * kron i k * d l + d i * d j * d k * d l)

/-- The tables `s_dash_range`, `lam_range_with_reciprocals` and `XYZ_raw`:
`resistance_scalars/data.py` lines 13-29. `raw k g n l` is `XYZ_raw[k, g, n, l]`. -/
structure ScalarTable where
  sDash : List ℝ
  lam : List ℝ
  raw : ℕ → ℕ → ℕ → ℕ → ℝ

open Classical in
/-- `np.interp(x, xp, fp)`, as called in `functions/generate_R2Bexact.py` line 251: constant outside the
table, and linear on the interval whose left end is the last node not above `x`. Simplification: the
binary search is a count of the nodes not above `x`, which is its result for ascending nodes. -/
noncomputable def npInterp (x : ℝ) (xp : List ℝ) (fp : ℕ → ℝ) : ℝ :=
  let n := xp.length
  if x < xp.getD 0 0 then fp 0
  else if xp.getD (n - 1) 0 ≤ x then fp (n - 1)
  else
    let j := (xp.filter fun v => decide (v ≤ x)).length - 1
    (fp (j + 1) - fp j) / (xp.getD (j + 1) 0 - xp.getD j 0) * (x - xp.getD j 0) + fp j

/-- `XYZ(scalar_index, gamma, s_dash, lam_index)`: `functions/generate_R2Bexact.py` lines 239-251. The
warning printed beyond the table is not modelled. -/
noncomputable def XYZ (T : ScalarTable) (k g : ℕ) (s : ℝ) (l : ℕ) : ℝ :=
  npInterp s T.sDash fun n => T.raw k g n l

/-- `Af`, with `XA` and `YA`: `functions/generate_R2Bexact.py` lines 102-109, 157-161. -/
noncomputable def Af (T : ScalarTable) (g : ℕ) (d : Vec3) (l : ℕ) (s : ℝ) (i j : Fin 3) : ℝ :=
  XYZ T 0 g s l * L1 d i j + XYZ T 1 g s l * L2 d i j

/-- `Bf`, with `YB`: `functions/generate_R2Bexact.py` lines 112-114, 165-168. -/
noncomputable def Bf (T : ScalarTable) (g : ℕ) (d : Vec3) (l : ℕ) (s : ℝ) (i j : Fin 3) : ℝ :=
  XYZ T 2 g s l * L3 d i j

/-- `Cf`, with `XC` and `YC`: `functions/generate_R2Bexact.py` lines 117-124, 172-176. -/
noncomputable def Cf (T : ScalarTable) (g : ℕ) (d : Vec3) (l : ℕ) (s : ℝ) (i j : Fin 3) : ℝ :=
  XYZ T 3 g s l * L1 d i j + XYZ T 4 g s l * L2 d i j

/-- `Gf`, with `XG` and `YG`: `functions/generate_R2Bexact.py` lines 127-134, 180-185. -/
noncomputable def Gf (T : ScalarTable) (g : ℕ) (d : Vec3) (l : ℕ) (s : ℝ) (i j k : Fin 3) : ℝ :=
  XYZ T 5 g s l * L4 d i j k + XYZ T 6 g s l * L5 d i j k

/-- `Hf`, with `YH`: `functions/generate_R2Bexact.py` lines 137-139, 189-193. -/
noncomputable def Hf (T : ScalarTable) (g : ℕ) (d : Vec3) (l : ℕ) (s : ℝ) (i j k : Fin 3) : ℝ :=
  XYZ T 7 g s l * L6 d i j k

/-- `Mf`, with `XM`, `YM` and `ZM`: `functions/generate_R2Bexact.py` lines 142-154, 197-205. -/
noncomputable def Mf (T : ScalarTable) (g : ℕ) (d : Vec3) (l : ℕ) (s : ℝ) (i j k m : Fin 3) : ℝ :=
  XYZ T 8 g s l * L7 d i j k m + XYZ T 9 g s l * L8 d i j k m + XYZ T 10 g s l * L9 d i j k m

/-- `con_Gf_row`: `functions/generate_R2Bexact.py` lines 209-220. -/
noncomputable def con_Gf_row (T : ScalarTable) (g : ℕ) (d : Vec3) (l : ℕ) (s : ℝ) (i : Fin 3) : Vec5 :=
  let A := Gf T g d l s 0 0 i
  let B := Gf T g d l s 1 1 i
  ![hs3p1 * A + hs3m1 * B, s2 * Gf T g d l s 0 1 i, hs3m1 * A + hs3p1 * B, s2 * Gf T g d l s 0 2 i,
    s2 * Gf T g d l s 1 2 i]

/-- `con_Hf_row`: `functions/generate_R2Bexact.py` lines 224-235. -/
noncomputable def con_Hf_row (T : ScalarTable) (g : ℕ) (d : Vec3) (l : ℕ) (s : ℝ) (i : Fin 3) : Vec5 :=
  let A := Hf T g d l s 0 0 i
  let B := Hf T g d l s 1 1 i
  ![hs3p1 * A + hs3m1 * B, s2 * Hf T g d l s 0 1 i, hs3m1 * A + hs3p1 * B, s2 * Hf T g d l s 0 2 i,
    s2 * Hf T g d l s 1 2 i]

/-- `np.isclose(a, b)` with the default tolerances, as used in `functions/generate_R2Bexact.py` lines
377-379. -/
def isclose (a b : ℝ) : Prop := |a - b| ≤ 1 / 10 ^ 8 + 1 / 10 ^ 5 * |b|

open Classical in
/-- `np.where(np.isclose(lam_range_with_reciprocals, lam))[0][0]`: `functions/generate_R2Bexact.py` lines
377-379. `none` is the out-of-bounds read of an empty array (compiled code does not check bounds, so
what happens then is undefined). -/
noncomputable def lamIndex (T : ScalarTable) (lam : ℝ) : Option ℕ :=
  T.lam.findIdx? fun x => decide (isclose x lam)

/-- An entry of `nearby_beads`, `nearby_beads_displacements` and `nearby_beads_distances`:
`functions/generate_R2Bexact.py` lines 402-404. -/
structure Nearby where
  bead : ℕ
  disp : Vec3
  dist : ℝ

/-- The neighbour lists of bead `a`: `functions/generate_R2Bexact.py` lines 402-420, repeated in lines
565-583 and 618-636. -/
def nearbyBeads (ps : List ClosePair) (a : ℕ) : List Nearby :=
  ps.flatMap fun p =>
    (if p.i = a ∧ p.i ≠ p.j then [⟨p.j, p.disp, p.dist⟩] else []) ++
    (if p.j = a ∧ p.i ≠ p.j then [⟨p.i, -p.disp, p.dist⟩] else [])

/-- Size-ratio index, unit displacement and scaled distance of a neighbour:
`functions/generate_R2Bexact.py` lines 429-434. -/
structure Neighbour where
  lam : ℕ
  d : Vec3
  s : ℝ

/-- The values looked up for each neighbour of bead `a`: `functions/generate_R2Bexact.py` lines 428-434,
repeated in lines 586-592 and 639-645. Simplification: the code looks each one up as it sums. -/
noncomputable def neighbours (T : ScalarTable) (size : ℕ → ℝ) (ps : List ClosePair) (a : ℕ) :
    Option (List Neighbour) :=
  (nearbyBeads ps a).mapM fun n => do
    let l ← lamIndex T (size n.bead / size a)
    some ⟨l, fun k => n.disp k / n.dist, n.dist⟩

/-- `A_sum` and the other sums over neighbours: `functions/generate_R2Bexact.py` lines 421-454. -/
noncomputable def nbSum (nb : List Neighbour) (f : Neighbour → ℝ) : ℝ := (nb.map f).sum

/-- A sphere with itself: `functions/generate_R2Bexact.py` lines 401-466. -/
noncomputable def r2bSelfSphere (T : ScalarTable) (D : NDMat) (K : Coords) (nb : List Neighbour)
    (a1 : ℝ) : NDMat :=
  let scale_A := 6 * Real.pi * a1
  let scale_B := 4 * Real.pi * a1 ^ 2
  let scale_C := 8 * Real.pi * a1 ^ 3
  let scale_G := 4 * Real.pi * a1 ^ 2
  let scale_H := 8 * Real.pi * a1 ^ 3
  let scale_M := 20 / 3 * Real.pi * a1 ^ 3
  let D := writeAt D K.A 3 3 fun i j =>
    nbSum nb fun n => Af T 0 n.d n.lam n.s (f3 i) (f3 j) * scale_A
  let D := writeAt D K.Bt 3 3 fun i j =>
    nbSum nb fun n => Bf T 0 n.d n.lam n.s (f3 j) (f3 i) * scale_B
  let D := writeAt D K.C 3 3 fun i j =>
    nbSum nb fun n => Cf T 0 n.d n.lam n.s (f3 i) (f3 j) * scale_C
  let D := writeAt D K.Gt 3 5 fun i j =>
    nbSum nb fun n => con_Gf_row T 0 n.d n.lam n.s (f3 i) (f5 j) * scale_G
  let D := writeAt D K.Ht 3 5 fun i j =>
    nbSum nb fun n => con_Hf_row T 0 n.d n.lam n.s (f3 i) (f5 j) * scale_H
  writeAt D K.M 5 5 fun i j =>
    nbSum nb fun n => condense55 (Mf T 0 n.d n.lam n.s) (f5 i) (f5 j) * scale_M

/-- Two different spheres: `functions/generate_R2Bexact.py` lines 468-524. -/
noncomputable def r2bSphereSphere (T : ScalarTable) (D : NDMat) (K : Coords) (d : Vec3) (l lr : ℕ)
    (s lam a1 a2 : ℝ) : NDMat :=
  let scale_A := 6 * Real.pi * a1
  let scale_B := 4 * Real.pi * a1 ^ 2
  let scale_C := 8 * Real.pi * a1 ^ 3
  let scale_G := 4 * Real.pi * a1 ^ 2
  let scale_H := 8 * Real.pi * a1 ^ 3
  let scale_M := 20 / 3 * Real.pi * a1 ^ 3
  let scale_B2 := 4 * Real.pi * a2 ^ 2
  let scale_G2 := 4 * Real.pi * a2 ^ 2
  let scale_H2 := 8 * Real.pi * a2 ^ 3
  let D := writeAt D K.A 3 3 fun i j => Af T 1 d l s (f3 i) (f3 j) * scale_A
  let D := writeAt D K.Bt 3 3 fun i j => Bf T 1 (-d) lr s (f3 j) (f3 i) * scale_B2
  let D := writeAt D K.C 3 3 fun i j => Cf T 1 d l s (f3 i) (f3 j) * scale_C
  let D := (List.range 3).foldl (fun D i =>
    let D := writeAt D (K.Gt.1 + i, K.Gt.2) 1 5 fun _ j =>
      con_Gf_row T 1 (-d) lr s (f3 i) (f5 j) * scale_G2
    writeAt D (K.Ht.1 + i, K.Ht.2) 1 5 fun _ j =>
      con_Hf_row T 1 (-d) lr s (f3 i) (f5 j) * scale_H2) D
  let D := writeAt D K.M 5 5 fun i j => condense55 (Mf T 1 d l s) (f5 i) (f5 j) * scale_M
  if lam = 1 then
    let D := writeAt D K.Bt21 3 3 fun i j => -D.get (K.Bt.1 + i) (K.Bt.2 + j)
    let D := writeAt D K.Gt21 3 5 fun i j => -D.get (K.Gt.1 + i) (K.Gt.2 + j)
    writeAt D K.Ht21 3 5 fun i j => D.get (K.Ht.1 + i) (K.Ht.2 + j)
  else
    let D := writeAt D K.Bt21 3 3 fun i j => Bf T 1 d l s (f3 j) (f3 i) * scale_B
    (List.range 3).foldl (fun D i =>
      let D := writeAt D (K.Gt21.1 + i, K.Gt21.2) 1 5 fun _ j =>
        con_Gf_row T 1 d l s (f3 i) (f5 j) * scale_G
      writeAt D (K.Ht21.1 + i, K.Ht21.2) 1 5 fun _ j =>
        con_Hf_row T 1 d l s (f3 i) (f5 j) * scale_H) D

/-- A sphere and a dumbbell bead: `functions/generate_R2Bexact.py` lines 526-542 with the corners
`R14_c, R24_c, R34_c`, and lines 544-559 with `R15_c, R25_c, R35_c`. -/
noncomputable def r2bSphereBead (T : ScalarTable) (D : NDMat) (K1 K2 K3 : ℕ × ℕ) (d : Vec3) (l : ℕ)
    (s a1 : ℝ) : NDMat :=
  let scale_A := 6 * Real.pi * a1
  let scale_B := 4 * Real.pi * a1 ^ 2
  let scale_G := 4 * Real.pi * a1 ^ 2
  let D := writeAt D K1 3 3 fun i j => Af T 1 d l s (f3 i) (f3 j) * scale_A
  let D := writeAt D K2 3 3 fun i j => Bf T 1 d l s (f3 i) (f3 j) * scale_B
  writeAt D K3 5 3 fun i j =>
    condense53 (fun j i k => Gf T 1 d l s i k j) (f5 i) (f3 j) * scale_G

/-- The block of a dumbbell bead with itself: `functions/generate_R2Bexact.py` lines 564-598 and 617-651. -/
noncomputable def r2bSelfBead (T : ScalarTable) (D : NDMat) (K : ℕ × ℕ) (nb : List Neighbour)
    (a1 : ℝ) : NDMat :=
  writeAt D K 3 3 fun i j =>
    nbSum nb fun n => Af T 0 n.d n.lam n.s (f3 i) (f3 j) * (6 * Real.pi * a1)

/-- The block of two different dumbbell beads, if they interact: `functions/generate_R2Bexact.py` lines
599-604, 609-613 and 652-657. -/
noncomputable def r2bBeadBead (T : ScalarTable) (D : NDMat) (K : ℕ × ℕ) (d : Vec3) (l : ℕ) (s a1 : ℝ)
    (bb : Bool) : NDMat :=
  if bb then writeAt D K 3 3 fun i j => Af T 1 d l s (f3 i) (f3 j) * (6 * Real.pi * a1) else D

/-- The body of the loop over close pairs: `functions/generate_R2Bexact.py` lines 369-657. `none` is a
failed lookup of a size ratio. The unit displacement `d` is not used for a bead with itself. -/
noncomputable def r2bStep (T : ScalarTable) (Ns Nd : ℕ) (size : ℕ → ℝ) (bb : Bool)
    (ps : List ClosePair) (D : NDMat) (p : ClosePair) : Option NDMat := do
  let d : Vec3 := fun k => p.disp k / p.dist
  let l ← lamIndex T p.ratio
  let lr ← lamIndex T (1 / p.ratio)
  let a1 := size p.i
  let a2 := size p.j
  let K := submatrix_coords_tuple p.i p.j Ns Nd
  if is_sphere p.i Ns && is_sphere p.j Ns then
    if p.i = p.j then do
      let nb ← neighbours T size ps p.i
      some (r2bSelfSphere T D K nb a1)
    else some (r2bSphereSphere T D K d l lr p.dist p.ratio a1 a2)
  else if is_sphere p.i Ns && is_dumbbell_bead_1 p.j Ns Nd then
    some (r2bSphereBead T D K.M14 K.M24 K.M34 d l p.dist a1)
  else if is_sphere p.i Ns then
    some (r2bSphereBead T D K.M15 K.M25 K.M35 d l p.dist a1)
  else if is_dumbbell_bead_1 p.i Ns Nd && is_dumbbell_bead_1 p.j Ns Nd then
    if p.i = p.j then do
      let nb ← neighbours T size ps p.i
      some (r2bSelfBead T D K.M44 nb a1)
    else some (r2bBeadBead T D K.M44 d l p.dist a1 bb)
  else if is_dumbbell_bead_1 p.i Ns Nd && is_dumbbell_bead_2 p.j Ns Nd then
    some (r2bBeadBead T D K.M45 d l p.dist a1 bb)
  else
    if p.i = p.j then do
      let nb ← neighbours T size ps p.i
      some (r2bSelfBead T D K.M55 nb a1)
    else some (r2bBeadBead T D K.M55 d l p.dist a1 bb)

/-- `generate_R2Bexact_loop`: `functions/generate_R2Bexact.py` lines 340-663. -/
noncomputable def generate_R2Bexact_loop (T : ScalarTable) (D0 : NDMat) (Ns Nd : ℕ) (size : ℕ → ℝ)
    (bb : Bool) (ps : List ClosePair) : Option NDMat := do
  let D ← ps.foldlM (r2bStep T Ns Nd size bb ps) D0
  some (symmetrise D)

/-- The coordinate list of the sparse matrix `L` of the resistance side:
`functions/generate_R2Bexact.py` lines 320-329. -/
def resistanceLEntries (Ns Nd : ℕ) : List (ℕ × ℕ × ℝ) :=
  let Lrow := List.range (11 * Ns + 6 * Nd) ++ (List.range (3 * Nd)).map (· + 11 * Ns)
    ++ (List.range (3 * Nd)).map (· + 11 * Ns + 3 * Nd)
  let Lcol := List.range (11 * Ns + 6 * Nd) ++ (List.range (3 * Nd)).map (· + 11 * Ns + 3 * Nd)
    ++ (List.range (3 * Nd)).map (· + 11 * Ns)
  let Ldata : List ℝ := List.replicate (11 * Ns + 9 * Nd) 1 ++ List.replicate (3 * Nd) (-1)
  Lrow.zip (Lcol.zip Ldata)

/-- The part of `generate_R2Bexact` after the neighbour search: `functions/generate_R2Bexact.py` lines
305-337 (and the empty matrix of lines 292-294). -/
noncomputable def R2BexactOfPairs (T : ScalarTable) (P : PosData) (mu : ℝ) (bb : Bool)
    (ps : List ClosePair) : Option NDMat := do
  let n := 11 * P.Ns + 6 * P.Nd
  let M ← generate_R2Bexact_loop T (NDMat.zeros n n) P.Ns P.Nd P.beadSize bb ps
  if P.Nd > 0 then
    let L := cooMatrix n (resistanceLEntries P.Ns P.Nd)
    let R := L.transpose
    some (NDMat.smul mu ((L.dot M).dot R))
  else some (NDMat.smul mu M)

/-- `generate_R2Bexact` for a non-periodic domain: `functions/generate_R2Bexact.py` lines 260-337. -/
noncomputable def generate_R2Bexact (T : ScalarTable) (P : PosData) (cutoff_factor mu : ℝ) (bb : Bool) :
    Option NDMat :=
  R2BexactOfPairs T P mu bb (close_particles (P.Ns + 2 * P.Nd) P.beadPos P.beadSize cutoff_factor)

end SD
