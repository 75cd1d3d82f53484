import Mathlib.Data.Real.Basic
import Mathlib.LinearAlgebra.Matrix.NonsingularInverse

/-!
# Dense numpy arrays

A two-dimensional numpy array is modelled by its two dimensions and an entry function on
natural-number indices.  Only entries inside the dimensions are meaningful; the entry function is
never inspected outside by the property statements.  Floats are real numbers.
-/

namespace SD

/-- A dense numpy matrix with explicit dimensions (the arrays used throughout
`functions/simulation_tools.py`, e.g. lines 174 and 201). -/
structure NDMat where
  rows : ℕ
  cols : ℕ
  get : ℕ → ℕ → ℝ

namespace NDMat

/-- `np.zeros((r, c))`, as in `functions/simulation_tools.py` lines 174, 201. -/
def zeros (r c : ℕ) : NDMat := ⟨r, c, fun _ _ => 0⟩

/-- Basic slicing `M[r0:r1, c0:c1]`, as in `functions/simulation_tools.py` lines 238-245.
Simplification: numpy truncates slices that run past the end; the code only slices in range. -/
def slice (M : NDMat) (r0 r1 c0 c1 : ℕ) : NDMat :=
  ⟨r1 - r0, c1 - c0, fun i j => M.get (r0 + i) (c0 + j)⟩

/-- `M.transpose()`, as in `functions/simulation_tools.py` lines 239-246. -/
def transpose (M : NDMat) : NDMat := ⟨M.cols, M.rows, fun i j => M.get j i⟩

/-- Unary minus on an array, as in `functions/simulation_tools.py` line 309. -/
def neg (M : NDMat) : NDMat := ⟨M.rows, M.cols, fun i j => -M.get i j⟩

/-- Array subtraction of equal-shaped arrays, as in `functions/simulation_tools.py` lines 265-267.
Simplification: shapes are equal in every use, broadcasting is not modelled. -/
def sub (M N : NDMat) : NDMat := ⟨M.rows, M.cols, fun i j => M.get i j - N.get i j⟩

/-- Array addition of equal-shaped arrays, as in
`functions/generate_grand_resistance_matrix.py` lines 90 and 189. -/
def add (M N : NDMat) : NDMat := ⟨M.rows, M.cols, fun i j => M.get i j + N.get i j⟩

/-- Multiplication of an array by a number, as in `functions/generate_R2Bexact.py` lines 335, 337. -/
def smul (c : ℝ) (M : NDMat) : NDMat := ⟨M.rows, M.cols, fun i j => c * M.get i j⟩

/-- `np.dot(A, B)` for matrices, as in `functions/simulation_tools.py` lines 176, 179. -/
def dot (A B : NDMat) : NDMat :=
  ⟨A.rows, B.cols, fun i j => ∑ k ∈ Finset.range A.cols, A.get i k * B.get k j⟩

/-- Slice assignment `D[r0:r1, c0:c1] = B`, as in `functions/simulation_tools.py` lines 178-179. -/
def setBlock (D : NDMat) (r0 r1 c0 c1 : ℕ) (B : NDMat) : NDMat :=
  ⟨D.rows, D.cols, fun i j =>
    if r0 ≤ i ∧ i < r1 ∧ c0 ≤ j ∧ j < c1 then B.get (i - r0) (j - c0) else D.get i j⟩

/-- The array as a square Mathlib matrix (no counterpart in the code: bridge used to define `inv`
and `solve`, which are `np.linalg.inv`/`np.linalg.solve` in `functions/simulation_tools.py`
line 253 and `functions/timestepping.py` line 319). -/
def toMatrix (M : NDMat) : Matrix (Fin M.rows) (Fin M.rows) ℝ := fun i j => M.get i j

open Classical in
/-- `np.linalg.inv(M)`, as in `functions/simulation_tools.py` lines 253, 320, 403, 435, 496, 520.
`none` is the `LinAlgError` raised for a non-square or singular matrix (exact arithmetic). -/
noncomputable def inv (M : NDMat) : Option NDMat :=
  if M.rows = M.cols ∧ M.toMatrix.det ≠ 0 then
    some ⟨M.rows, M.rows, fun i j =>
      if h : i < M.rows ∧ j < M.rows then M.toMatrix⁻¹ ⟨i, h.1⟩ ⟨j, h.2⟩ else 0⟩
  else none

open Classical in
/-- `np.linalg.solve(M, f)`, as in `functions/timestepping.py` lines 319, 350, 381, 435, 492.
`none` is the error raised for a non-square or singular matrix or a right-hand side of the wrong
length (exact arithmetic). -/
noncomputable def solve (M : NDMat) (f : List ℝ) : Option (List ℝ) :=
  if M.rows = M.cols ∧ f.length = M.rows ∧ M.toMatrix.det ≠ 0 then
    some (List.ofFn (M.toMatrix⁻¹.mulVec fun i => f.getD i 0))
  else none

end NDMat

end SD
