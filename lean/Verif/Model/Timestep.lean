import Verif.Model.Layout
import Verif.Model.Green
import Mathlib.Analysis.SpecialFunctions.Complex.Arg
import Mathlib.Analysis.SpecialFunctions.Trigonometric.Inverse

/-!
# `functions/timestepping.py`: time steps, rotations, background flow, periodic wrap

Arrays of particle data are functions of the particle number. `none` is an exception.
-/

set_option autoImplicit false

namespace SD

/-- `euler_timestep(x, u, timestep)`: `functions/timestepping.py` lines 23-25. -/
def euler_timestep (x u : ℕ → Vec3) (timestep : ℝ) : ℕ → Vec3 := fun i k => x i k + timestep * u i k

/-- `ab2_timestep(x, u, u_previous, timestep)`: `functions/timestepping.py` lines 28-30. -/
noncomputable def ab2_timestep (x u u_previous : ℕ → Vec3) (timestep : ℝ) : ℕ → Vec3 :=
  fun i k => x i k + timestep * (1.5 * u i k - 0.5 * u_previous i k)

open Classical in
/-- `did_something_go_wrong_with_dumbells(error, dumbbell_deltax, new_dumbbell_deltax,
explosion_protection)`: `functions/timestepping.py` lines 33-69; `n` is `new_dumbbell_deltax.shape[0]`.
Simplification: the test of lines 52-60 only prints, and is left out, as is the old displacement. -/
noncomputable def did_something_go_wrong_with_dumbells (error : Bool) (n : ℕ)
    (new_dumbbell_deltax : ℕ → Vec3) (explosion_protection : Bool) : Bool :=
  (List.range n).foldl
    (fun error i =>
      if explosion_protection = true ∧ norm3 (new_dumbbell_deltax i) > 5 then true else error)
    error

/-- `np.cross(x, y)`: `functions/timestepping.py` lines 107-108, 686, 708, 710. -/
def npCross (x y : Vec3) : Vec3 :=
  ![x 1 * y 2 - x 2 * y 1, x 2 * y 0 - x 0 * y 2, x 0 * y 1 - x 1 * y 0]

/-- `np.dot(A, x)` for a 3x3 matrix and a 3-vector: `functions/timestepping.py` lines 120, 137, 690,
714, 716. -/
def matVec3 (A : Mat3) (x : Vec3) : Vec3 := fun i => ∑ j : Fin 3, A i j * x j

/-- `np.dot(x, A)` for a row 3-vector and a 3x3 matrix: `functions/timestepping.py` lines 675-677. -/
def vecMat3 (x : Vec3) (A : Mat3) : Vec3 := fun j => ∑ i : Fin 3, x i * A i j

open Classical in
/-- `np.linalg.inv` of a 3x3 matrix: `functions/timestepping.py` lines 120, 676. `none` is the
`LinAlgError` for a singular matrix. -/
noncomputable def inv3 (A : Mat3) : Option Mat3 :=
  if (Matrix.of A).det = 0 then none else some fun i j => (Matrix.of A)⁻¹ i j

/-- `np.allclose(a, b)` with the default tolerances: `functions/timestepping.py` line 103. -/
def npAllclose3 (a b : Vec3) : Prop := ∀ k, |a k - b k| ≤ 1 / 10 ^ 8 + 1 / 10 ^ 5 * |b k|

open Classical in
/-- `rot_matrix` for the angular velocity `w`: `functions/timestepping.py` lines 84 and 99-109. -/
noncomputable def rot_matrix (w : Vec3) : Mat3 :=
  let O := Real.sqrt (w 0 ^ 2 + w 1 ^ 2 + w 2 ^ 2)
  if w = ![0, 0, 0] then fun i j => if i = j then 1 else 0
  else
    let Otest : Vec3 := fun k => |w k / O|
    let perp1 : Vec3 := if npAllclose3 Otest ![1, 0, 0] then ![0, 0, 1] else ![1, 0, 0]
    fun i j => ![npCross w perp1 i / O, npCross w (npCross w perp1) i / O ^ 2, w i / O] j

/-- The body of the inner loop of `euler_timestep_rotation`: `functions/timestepping.py` lines 84 and
115-138, for one arrow `rb0` of one sphere that moves from `R0` to `R`. `np.arctan2(y0, x0)` is the
argument of the complex number `x0 + i y0`. `none` is a singular `rot_matrix` or the division by zero of
line 126 (an exception, or `nan` when Numba is off). -/
noncomputable def rotate_arrow (R0 rb0 R w : Vec3) (timestep : ℝ) : Option Vec3 := do
  let O := Real.sqrt (w 0 ^ 2 + w 1 ^ 2 + w 2 ^ 2)
  let A := rot_matrix w
  let B ← inv3 A
  let s := matVec3 B fun k => rb0 k - R0 k
  let x0 := s 0
  let y0 := s 1
  let z0 := s 2
  let r0 := Real.sqrt (x0 ^ 2 + y0 ^ 2 + z0 ^ 2)
  if r0 = 0 then none
  else
    let t0 := Real.arccos (z0 / r0)
    let p0 := if x0 = 0 ∧ y0 = 0 then 0 else Complex.arg ⟨x0, y0⟩
    let p := p0 + timestep * O
    let x := r0 * Real.sin t0 * Real.cos p
    let y := r0 * Real.sin t0 * Real.sin p
    let z := r0 * Real.cos t0
    some fun k => R k + matVec3 A ![x, y, z] k

/-- Two orientation arrows of every sphere (`sphere_rotations`, `functions/shared.py` lines 238-244). -/
abbrev Rots := ℕ → Fin 2 → Vec3

open Classical in
/-- `euler_timestep_rotation`: `functions/timestepping.py` lines 73-139; `n` is
`sphere_positions.shape[0]`. The array `new_sphere_rotations` handed in is fully overwritten for the `n`
spheres. -/
noncomputable def euler_timestep_rotation (n : ℕ) (sphere_positions : ℕ → Vec3)
    (sphere_rotations : Rots) (new_sphere_positions : ℕ → Vec3) (Oa_out : ℕ → Vec3) (timestep : ℝ) :
    Option Rots :=
  let arrow := fun (i : ℕ) (j : Fin 2) =>
    rotate_arrow (sphere_positions i) (sphere_rotations i j) (new_sphere_positions i) (Oa_out i) timestep
  if ∀ i < n, ∀ j, (arrow i j).isSome then
    some fun i j => if i < n then (arrow i j).getD 0 else sphere_rotations i j
  else none

/-- `ab2_timestep_rotation`: `functions/timestepping.py` lines 142-153. -/
noncomputable def ab2_timestep_rotation (n : ℕ) (sphere_positions : ℕ → Vec3)
    (sphere_rotations : Rots) (new_sphere_positions : ℕ → Vec3) (Oa_out Oa_out_previous : ℕ → Vec3)
    (timestep : ℝ) : Option Rots :=
  euler_timestep_rotation n sphere_positions sphere_rotations new_sphere_positions
    (fun i k => 1.5 * Oa_out i k - 0.5 * Oa_out_previous i k) timestep

/-- `add_background_flow_spheres`: `functions/timestepping.py` lines 681-699. -/
noncomputable def add_background_flow_spheres (Ua Oa : ℕ → Vec3) (Ea : ℕ → Mat3) (U O : Vec3)
    (x : ℕ → Vec3) (c : Vec3) : (ℕ → Vec3) × (ℕ → Vec3) :=
  (fun i k => Ua i k + U k + npCross O (fun m => x i m - c m) k
      + matVec3 (Ea i) (fun m => x i m - c m) k,
   fun i k => Oa i k + O k)

/-- `add_background_flow_dumbbells`: `functions/timestepping.py` lines 702-725. `E0` is `Ea_out_k1[0]`. -/
noncomputable def add_background_flow_dumbbells (Ub HalfDUb : ℕ → Vec3) (E0 : Mat3) (U O : Vec3)
    (xbar deltax : ℕ → Vec3) (c : Vec3) : (ℕ → Vec3) × (ℕ → Vec3) :=
  (fun i k => Ub i k + U k + npCross O (fun m => xbar i m - c m) k
      + matVec3 E0 (fun m => xbar i m - c m) k,
   fun i k => HalfDUb i k + 0.5 * (npCross O (deltax i) k + matVec3 E0 (deltax i) k))

/-- `np.mod(x, m)` for a positive modulus: `functions/shared.py` line 434, `functions/timestepping.py`
line 675. -/
noncomputable def npMod (x m : ℝ) : ℝ := x - m * ⌊x / m⌋

/-- `np.diag(box_dimensions)`: `functions/timestepping.py` line 671, `functions/shared.py` line 452. -/
def basis_canonical (L : Vec3) : Mat3 := fun i j => if i = j then L i else 0

/-- `shear_basis_vectors(basis_canonical, box_dimensions, Ot_infinity, Et_infinity)`:
`functions/shared.py` lines 428-437. Row `k` is the sheared basis vector `k`. -/
noncomputable def shear_basis_vectors (basis : Mat3) (L Ot : Vec3) (Et : Mat3) : Mat3 := fun k i =>
  basis k i + npMod (npCross Ot (basis k) i + matVec3 Et (basis k) i) (L i)

/-- `wrap_around`: `functions/timestepping.py` lines 653-678, for one particle. -/
noncomputable def wrap_around (x bottom_left top_right Ot : Vec3) (Et : Mat3) : Option Vec3 :=
  let L : Vec3 := fun i => top_right i - bottom_left i
  let B := shear_basis_vectors (basis_canonical L) L Ot Et
  (inv3 B).map fun Bi => vecMat3 (fun i => npMod (vecMat3 x Bi i + 0.5) 1 - 0.5) B

/-- `i % invert_m_every == 0 or i == checkpoint_start_from_frame`: `functions/timestepping.py` line 574. -/
def dueFrame (n start i : ℕ) : Bool := i % n == 0 || i == start

/-- The mean `sum(l) / len(l)`: `functions/timestepping.py` lines 581, 589, 596. -/
noncomputable def meanOf (l : List ℝ) : ℝ := l.sum / l.length

/-- `calculate_time_left`: `functions/timestepping.py` lines 557-618. `jit` is
`not numba.config.DISABLE_JIT`. The result is the estimate and the flags. `none` is the exception of a
remainder by zero (line 574); the caller has always done at least one frame. -/
noncomputable def calculate_time_left (jit : Bool) (times : ℕ → ℝ) (frameno num_frames n start : ℕ) :
    Option (ℝ × String) :=
  if n = 0 then none else
  let done := List.range' start (frameno + 1 - start)
  let longtimes := (done.filter fun i => dueFrame n start i).map times
  let long : ℝ × String :=
    if jit then
      if longtimes.length ≥ 2 then (meanOf longtimes.tail, "")
      else if longtimes.length = 1 then (longtimes.headD 0, "<")
      else (0, "")
    else if longtimes.length > 0 then (meanOf longtimes, "") else (0, "")
  let shorttimes := (done.filter fun i => !dueFrame n start i).map times
  let shorttimeaverage := if shorttimes.length ≠ 0 then meanOf shorttimes else long.1
  let todo := List.range' (frameno + 1) (num_frames - (frameno + 1))
  let longleft := (todo.filter fun i => i % n == 0).length
  let shortleft := (todo.filter fun i => i % n != 0).length
  let timeleft := (shortleft * shorttimeaverage + longleft * long.1) * 1.03
  some (timeleft, long.2 ++ (if frameno = start ∧ shortleft > 0 then "<" else ""))

end SD
