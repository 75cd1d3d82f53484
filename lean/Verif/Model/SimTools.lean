import Verif.Model.Arr
import Mathlib.Analysis.Real.Sqrt

/-!
# `functions/simulation_tools.py`: condensation, grand vectors, input-form conversions
-/

namespace SD

/-- `hs3p1 = 0.5*(s3+1)`: `functions/shared.py` lines 14-16 (and the literal
1.3660254037844386 in `contraction`, line 71). -/
noncomputable def hs3p1 : ℝ := (1 / 2) * (Real.sqrt 3 + 1)

/-- `hs3m1 = 0.5*(s3-1)`: `functions/shared.py` line 17 (and the literal 0.3660254037844386 in
`contraction`, line 74). -/
noncomputable def hs3m1 : ℝ := (1 / 2) * (Real.sqrt 3 - 1)

/-- `s2 = sqrt(2)`: `functions/shared.py` line 15 (and the literal 1.4142135623730951 in
`contraction`, line 78). -/
noncomputable def s2 : ℝ := Real.sqrt 2

/-- `contraction(i, j, k)`: `functions/shared.py` lines 65-80. The decimal literals are read as the
numbers named in the code's own comments. -/
noncomputable def contraction (i j k : ℕ) : ℝ :=
  if (i = 0 ∧ j = 0 ∧ k = 0) ∨ (i = 2 ∧ j = 1 ∧ k = 1) then hs3p1
  else if (i = 0 ∧ j = 1 ∧ k = 1) ∨ (i = 2 ∧ j = 0 ∧ k = 0) then hs3m1
  else if (i = 1 ∧ j = 0 ∧ k = 1) ∨ (i = 3 ∧ j = 0 ∧ k = 2) ∨ (i = 4 ∧ j = 1 ∧ k = 2) then s2
  else 0

/-- A 3-vector of floats (one row of the per-particle arrays, e.g.
`functions/simulation_tools.py` line 31). -/
abbrev Vec3 := Fin 3 → ℝ

/-- A 3x3 matrix of floats (one entry of `s_spheres`, `functions/simulation_tools.py` line 34). -/
abbrev Mat3 := Fin 3 → Fin 3 → ℝ

/-- A condensed 5-vector (`functions/simulation_tools.py` line 37). -/
abbrev Vec5 := Fin 5 → ℝ

/-- One component of `condense`: `functions/simulation_tools.py` lines 57-64. The Python double
`sum` runs over the inner index first (line 61); the sums are finite so order is immaterial. -/
noncomputable def condenseOne (s : Mat3) : Vec5 := fun j =>
  ∑ l : Fin 3, ∑ k : Fin 3, contraction j k l * s k l

/-- `condense(s_spheres, num_spheres)`: `functions/simulation_tools.py` lines 52-65. -/
noncomputable def condense (s : List Mat3) : List Vec5 := s.map condenseOne

/-- `condense_and_flatten(s_spheres, num_spheres)`: `functions/simulation_tools.py` lines 69-78.
The accumulation loop over `k`, `l` is the double sum; entry `i*5+j` is component `j` of sphere
`i`. -/
noncomputable def condense_and_flatten (s : List Mat3) : List ℝ :=
  s.flatMap fun m => List.ofFn fun j : Fin 5 => ∑ k : Fin 3, ∑ l : Fin 3, contraction j k l * m k l

/-- The body of the loop of `uncondense`: `functions/simulation_tools.py` lines 87-97. -/
noncomputable def uncondenseOne (e : Vec5) : Mat3 :=
  let e00 := (Real.sqrt 3 + 3) / 6 * e 0 + (Real.sqrt 3 - 3) / 6 * e 2
  let e01 := e 1 / Real.sqrt 2
  let e02 := e 3 / Real.sqrt 2
  let e11 := (Real.sqrt 3 - 3) / 6 * e 0 + (Real.sqrt 3 + 3) / 6 * e 2
  let e12 := e 4 / Real.sqrt 2
  ![![e00, e01, e02], ![e01, e11, e12], ![e02, e12, -e11 - e00]]

/-- `uncondense(e_spheres_condensed, num_spheres)`: `functions/simulation_tools.py` lines 81-98. -/
noncomputable def uncondense (e : List Vec5) : List Mat3 := e.map uncondenseOne

/-- `[item for sublist in f for item in sublist]`: `functions/simulation_tools.py` lines 120, 121,
128-132. -/
def flatten3 (f : List Vec3) : List ℝ := f.flatMap fun v => [v 0, v 1, v 2]

/-- `construct_force_vector_from_fts`: `functions/simulation_tools.py` lines 101-134, on inputs
that are all numbers (the placeholder case is handled by `constructForceVector?` below). Counts
come from `posdata` in the code (`numSpheres`, `numDumbbells`). -/
noncomputable def construct_force_vector_from_fts (numSpheres numDumbbells : ℕ)
    (f t : List Vec3) (s : List Mat3) (fb dfb : List Vec3) : List ℝ :=
  let ss := condense_and_flatten (s.take numSpheres)
  if numSpheres = 0 ∧ numDumbbells = 0 then []
  else if 0 < numSpheres ∧ numDumbbells = 0 then flatten3 f ++ flatten3 t ++ ss
  else if numSpheres = 0 ∧ 0 < numDumbbells then flatten3 fb ++ flatten3 dfb
  else flatten3 f ++ flatten3 t ++ ss ++ flatten3 fb ++ flatten3 dfb

/-- `v[a:b].reshape(num, 3)`: `functions/simulation_tools.py` lines 150, 151, 153, 154. -/
noncomputable def reshape3 (v : List ℝ) (a num : ℕ) : List Vec3 :=
  (List.range num).map fun i => fun c : Fin 3 => v.getD (a + (3 * i + c)) 0

/-- `v[a:b].reshape(num, 5)`: `functions/simulation_tools.py` line 152. -/
noncomputable def reshape5 (v : List ℝ) (a num : ℕ) : List Vec5 :=
  (List.range num).map fun i => fun c : Fin 5 => v.getD (a + (5 * i + c)) 0

/-- The five outputs of `deconstruct_velocity_vector_for_fts`
(`functions/simulation_tools.py` lines 156-157). -/
structure GrandParts where
  u : List Vec3
  o : List Vec3
  e : List Mat3
  ub : List Vec3
  hdub : List Vec3

/-- `deconstruct_velocity_vector_for_fts`: `functions/simulation_tools.py` lines 137-157. -/
noncomputable def deconstruct_velocity_vector_for_fts (numSpheres numDumbbells : ℕ)
    (v : List ℝ) : GrandParts :=
  let N1 := 3 * numSpheres
  let N2 := 6 * numSpheres
  let N3 := 11 * numSpheres
  let N4 := 11 * numSpheres + 3 * numDumbbells
  { u := reshape3 v 0 numSpheres
    o := reshape3 v N1 numSpheres
    e := uncondense (reshape5 v N2 numSpheres)
    ub := reshape3 v N3 numDumbbells
    hdub := reshape3 v N4 numDumbbells }

/-! ## Block products -/

/-- Python list indexing `A[k]` / `starts[k]` for the block lists (always in range in the code):
`functions/simulation_tools.py` lines 176-179. -/
def blk (A : List NDMat) (k : ℕ) : NDMat := A.getD k (NDMat.zeros 0 0)

/-- `vecmat_mat_vecmat`: `functions/simulation_tools.py` lines 161-180. -/
def vecmat_mat_vecmat (A : List NDMat) (B : NDMat) (C : List NDMat)
    (matrix_size items_in_vector : ℕ) (starts : List ℕ) : NDMat :=
  (List.range items_in_vector).foldl (fun D Ai =>
    let E := NDMat.dot (blk A Ai) B
    (List.range items_in_vector).foldl (fun D Ci =>
      D.setBlock (starts.getD Ai 0) (starts.getD (Ai + 1) 0)
        (starts.getD Ci 0) (starts.getD (Ci + 1) 0) (NDMat.dot E (blk C Ci))) D)
    (NDMat.zeros matrix_size matrix_size)

/-- `vec_mat_cross`: `functions/simulation_tools.py` lines 184-216. -/
def vec_mat_cross (A : List NDMat) (B : NDMat) (C : List NDMat)
    (matrix_size items_in_vector : ℕ) (starts : List ℕ) (crosspoint : ℕ) : NDMat :=
  (List.range items_in_vector).foldl (fun D Ai =>
    let E := NDMat.dot (blk A Ai) B
    (List.range items_in_vector).foldl (fun D Ci =>
      if Ai = crosspoint ∧ Ci ≠ crosspoint then
        D.setBlock (starts.getD Ai 0) (starts.getD (Ai + 1) 0)
          (starts.getD Ci 0) (starts.getD (Ci + 1) 0) (NDMat.dot B (blk C Ci))
      else if Ai ≠ crosspoint ∧ Ci = crosspoint then
        D.setBlock (starts.getD Ai 0) (starts.getD (Ai + 1) 0)
          (starts.getD Ci 0) (starts.getD (Ci + 1) 0) E.neg
      else if Ai = crosspoint then
        D.setBlock (starts.getD Ai 0) (starts.getD (Ai + 1) 0)
          (starts.getD Ci 0) (starts.getD (Ci + 1) 0) B.neg
      else D) D)
    (NDMat.zeros matrix_size matrix_size)

/-! ## Conversions between input forms -/

/-- `fts_to_fte_matrix`: `functions/simulation_tools.py` lines 219-270. `none` models an exception:
the singular block (line 253) or, with no spheres, the unassigned `vec1` (lines 256-262). -/
noncomputable def fts_to_fte_matrix (numSpheres numDumbbells : ℕ) (M : NDMat) : Option NDMat :=
  let C0 := 0
  let C1 := 3 * numSpheres
  let C2 := 6 * numSpheres
  let C3 := 11 * numSpheres
  let C4 := 11 * numSpheres + 3 * numDumbbells
  let C5 := 11 * numSpheres + 6 * numDumbbells
  let gt := M.slice C0 C1 C2 C3
  let g := gt.transpose
  let ht := M.slice C1 C2 C2 C3
  let h := ht.transpose
  let m := M.slice C2 C3 C2 C3
  let m34 := M.slice C2 C3 C3 C4
  let m43 := m34.transpose
  let m35 := M.slice C2 C3 C4 C5
  let m53 := m35.transpose
  let items_in_vector := if 0 < numSpheres ∧ 0 < numDumbbells then 5 else 3
  let starts := [C0, C1, C2, C3, C4, C5]
  m.inv.bind fun m_inv =>
    if 0 < numSpheres then
      let vec1 := if 0 < numDumbbells then [gt, ht, m, m43, m53] else [gt, ht, m]
      let vec2 := if 0 < numDumbbells then [g, h, m, m34, m35] else [g, h, m]
      some ((M.sub (vecmat_mat_vecmat vec1 m_inv vec2 C5 items_in_vector starts)).sub
        (vec_mat_cross vec1 m_inv vec2 C5 items_in_vector starts 2))
    else none

/-- `fte_to_ufte_matrix`: `functions/simulation_tools.py` lines 273-338. -/
noncomputable def fte_to_ufte_matrix (num_fixed_velocity_spheres numSpheres numDumbbells : ℕ)
    (M : NDMat) : Option NDMat :=
  let C0 := 0
  let C05 := 3 * num_fixed_velocity_spheres
  let C1 := 3 * numSpheres
  let C2 := 6 * numSpheres
  let C3 := 11 * numSpheres
  let C4 := 11 * numSpheres + 3 * numDumbbells
  let C5 := 11 * numSpheres + 6 * numDumbbells
  let axx := M.slice C0 C05 C0 C05
  let axr := M.slice C0 C05 C05 C1
  let arx := M.slice C05 C1 C0 C05
  let btx := M.slice C0 C05 C1 C2
  let bx := btx.transpose
  let gtx := M.slice C0 C05 C2 C3
  let gx := gtx.transpose.neg
  let m14x := M.slice C0 C05 C3 C4
  let m15x := M.slice C0 C05 C4 C5
  let m51x := m15x.transpose
  let m41x := m14x.transpose
  let items_in_vector := if 0 < numSpheres ∧ 0 < numDumbbells then 5 + 1 else 3 + 1
  let starts := [C0, C05, C1, C2, C3, C4, C5]
  axx.inv.bind fun axx_inv =>
    if 0 < numSpheres then
      let vec1 := if 0 < numDumbbells then [axx, arx, bx, gx, m41x, m51x] else [axx, arx, bx, gx]
      let vec2 := if 0 < numDumbbells then [axx, axr, btx, gtx, m14x, m15x]
        else [axx, axr, btx, gtx]
      some ((M.sub (vecmat_mat_vecmat vec1 axx_inv vec2 C5 items_in_vector starts)).sub
        (vec_mat_cross vec1 axx_inv vec2 C5 items_in_vector starts 0))
    else none

/-- Step 1 of `ufte_to_ufteu_matrix`: `functions/simulation_tools.py` lines 355-413. -/
noncomputable def ufte_to_ufteu_step1 (num_fixed_velocity_dumbbells num_fixed_velocity_spheres
    numSpheres numDumbbells : ℕ) (M : NDMat) : Option NDMat :=
  let C0 := 0
  let C05 := 3 * num_fixed_velocity_spheres
  let C1 := 3 * numSpheres
  let C2 := 6 * numSpheres
  let C3 := 11 * numSpheres
  let C35 := 11 * numSpheres + 3 * num_fixed_velocity_dumbbells
  let C4 := 11 * numSpheres + 3 * numDumbbells
  let C45 := 11 * numSpheres + 3 * numDumbbells + 3 * num_fixed_velocity_dumbbells
  let C5 := 11 * numSpheres + 6 * numDumbbells
  let starts := [C0, C05, C1, C2, C3, C35, C4, C45, C5]
  let m41xx := M.slice C3 C35 C0 C05
  let m41rx := M.slice C3 C35 C05 C1
  let m42x := M.slice C3 C35 C1 C2
  let m43x := M.slice C3 C35 C2 C3
  let m44xx := M.slice C3 C35 C3 C35
  let m44xr := M.slice C3 C35 C35 C4
  let m45xx := M.slice C3 C35 C4 C45
  let m45xr := M.slice C3 C35 C45 C5
  let m14xx := m41xx.transpose.neg
  let m14rx := m41rx.transpose
  let m24x := m42x.transpose
  let m34x := m43x.transpose.neg
  let m44rx := m44xr.transpose
  let m54xx := m45xx.transpose
  let m54rx := m45xr.transpose
  m44xx.inv.bind fun m44xx_inv =>
    let vec1 := [m14xx, m14rx, m24x, m34x, m44xx, m44rx, m54xx, m54rx]
    let vec2 := [m41xx, m41rx, m42x, m43x, m44xx, m44xr, m45xx, m45xr]
    some ((M.sub (vecmat_mat_vecmat vec1 m44xx_inv vec2 C5 (7 + 1) starts)).sub
      (vec_mat_cross vec1 m44xx_inv vec2 C5 (7 + 1) starts 4))

/-- Step 2 of `ufte_to_ufteu_matrix`: `functions/simulation_tools.py` lines 415-447. -/
noncomputable def ufte_to_ufteu_step2 (num_fixed_velocity_dumbbells num_fixed_velocity_spheres
    numSpheres numDumbbells : ℕ) (M : NDMat) : Option NDMat :=
  let C0 := 0
  let C05 := 3 * num_fixed_velocity_spheres
  let C1 := 3 * numSpheres
  let C2 := 6 * numSpheres
  let C3 := 11 * numSpheres
  let C35 := 11 * numSpheres + 3 * num_fixed_velocity_dumbbells
  let C4 := 11 * numSpheres + 3 * numDumbbells
  let C45 := 11 * numSpheres + 3 * numDumbbells + 3 * num_fixed_velocity_dumbbells
  let C5 := 11 * numSpheres + 6 * numDumbbells
  let starts := [C0, C05, C1, C2, C3, C35, C4, C45, C5]
  let m51xx := M.slice C4 C45 C0 C05
  let m51rx := M.slice C4 C45 C05 C1
  let m52x := M.slice C4 C45 C1 C2
  let m53x := M.slice C4 C45 C2 C3
  let m54xx := M.slice C4 C45 C3 C35
  let m54xr := M.slice C4 C45 C35 C4
  let m55xx := M.slice C4 C45 C4 C45
  let m55xr := M.slice C4 C45 C45 C5
  let m15xx := m51xx.transpose.neg
  let m15rx := m51rx.transpose
  let m25x := m52x.transpose
  let m35x := m53x.transpose.neg
  let m45xx := m54xx.transpose.neg
  let m45rx := m54xr.transpose
  let m55rx := m55xr.transpose
  m55xx.inv.bind fun m55xx_inv =>
    let vec1 := [m15xx, m15rx, m25x, m35x, m45xx, m45rx, m55xx, m55rx]
    let vec2 := [m51xx, m51rx, m52x, m53x, m54xx, m54xr, m55xx, m55xr]
    some ((M.sub (vecmat_mat_vecmat vec1 m55xx_inv vec2 C5 (7 + 1) starts)).sub
      (vec_mat_cross vec1 m55xx_inv vec2 C5 (7 + 1) starts 6))

/-- `ufte_to_ufteu_matrix`: `functions/simulation_tools.py` lines 341-447. -/
noncomputable def ufte_to_ufteu_matrix (num_fixed_velocity_dumbbells num_fixed_velocity_spheres
    numSpheres numDumbbells : ℕ) (M : NDMat) : Option NDMat :=
  (ufte_to_ufteu_step1 num_fixed_velocity_dumbbells num_fixed_velocity_spheres
    numSpheres numDumbbells M).bind
  (ufte_to_ufteu_step2 num_fixed_velocity_dumbbells num_fixed_velocity_spheres
    numSpheres numDumbbells)

/-- Step 1 of `fts_to_duf_matrix`: `functions/simulation_tools.py` lines 463-506. -/
noncomputable def fts_to_duf_step1 (num_fixed_velocity_dumbbells numDumbbells : ℕ) (M : NDMat) :
    Option NDMat :=
  let C3 := 0
  let C35 := 3 * num_fixed_velocity_dumbbells
  let C4 := 3 * numDumbbells
  let C45 := 3 * numDumbbells + 3 * num_fixed_velocity_dumbbells
  let C5 := 6 * numDumbbells
  let starts := [C3, C35, C4, C45, C5]
  let m44xx := M.slice C3 C35 C3 C35
  let m44xr := M.slice C3 C35 C35 C4
  let m45xx := M.slice C3 C35 C4 C45
  let m45xr := M.slice C3 C35 C45 C5
  let m44rx := m44xr.transpose
  let m54xx := m45xx.transpose
  let m54rx := m45xr.transpose
  m44xx.inv.bind fun m44xx_inv =>
    let vec1 := [m44xx, m44rx, m54xx, m54rx]
    let vec2 := [m44xx, m44xr, m45xx, m45xr]
    some ((M.sub (vecmat_mat_vecmat vec1 m44xx_inv vec2 C5 4 starts)).sub
      (vec_mat_cross vec1 m44xx_inv vec2 C5 4 starts 0))

/-- Step 2 of `fts_to_duf_matrix`: `functions/simulation_tools.py` lines 508-532. -/
noncomputable def fts_to_duf_step2 (num_fixed_velocity_dumbbells numDumbbells : ℕ) (M : NDMat) :
    Option NDMat :=
  let C3 := 0
  let C35 := 3 * num_fixed_velocity_dumbbells
  let C4 := 3 * numDumbbells
  let C45 := 3 * numDumbbells + 3 * num_fixed_velocity_dumbbells
  let C5 := 6 * numDumbbells
  let starts := [C3, C35, C4, C45, C5]
  let m54xx := M.slice C4 C45 C3 C35
  let m54xr := M.slice C4 C45 C35 C4
  let m55xx := M.slice C4 C45 C4 C45
  let m55xr := M.slice C4 C45 C45 C5
  let m45xx := m54xx.transpose.neg
  let m45rx := m54xr.transpose
  let m55rx := m55xr.transpose
  m55xx.inv.bind fun m55xx_inv =>
    let vec1 := [m45xx, m45rx, m55xx, m55rx]
    let vec2 := [m54xx, m54xr, m55xx, m55xr]
    some ((M.sub (vecmat_mat_vecmat vec1 m55xx_inv vec2 C5 4 starts)).sub
      (vec_mat_cross vec1 m55xx_inv vec2 C5 4 starts 2))

/-- `fts_to_duf_matrix`: `functions/simulation_tools.py` lines 450-532. -/
noncomputable def fts_to_duf_matrix (num_fixed_velocity_dumbbells numDumbbells : ℕ) (M : NDMat) :
    Option NDMat :=
  (fts_to_duf_step1 num_fixed_velocity_dumbbells numDumbbells M).bind
    (fts_to_duf_step2 num_fixed_velocity_dumbbells numDumbbells)

end SD
