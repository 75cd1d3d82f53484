import Verif.Model.Frame
import Mathlib.Analysis.SpecialFunctions.Trigonometric.Basic

/-!
# The example scripts of the documentation, `examples/example-a.py` and `examples/example-c.py`

Each script loads a file of the program and works out what it plots. `none` is an exception. A division by zero gives an
infinity in the code; here `none` in its place. Example (b) plots saved centres as they are and computes nothing.
-/

set_option autoImplicit false

namespace SD

/-- One entry of `centres`: `run_simulation.py` lines 607, 619-620, the centres of the spheres and then those of the
dumbbells. -/
def savedCentres (c : Config) : List Vec3 :=
  (List.range c.P.Ns).map c.P.spherePos ++ (List.range c.P.Nd).map c.P.dumbPos

/-- `speeds_of_particles = (data1['centres'][1]-data1['centres'][0])/timestep_size` with `timestep_size = 1`:
`examples/example-a.py` lines 34 and 37, `examples/example-c.py` lines 38 and 41. -/
noncomputable def speeds_of_particles (data : Saved) : Option (List Vec3) := do
  let c1 ← data.positions[1]?
  let c0 ← data.positions[0]?
  some (List.zipWith (fun x y k => (x k - y k) / 1) (savedCentres c1) (savedCentres c0))

/-- One entry of `F/(6*np.pi*sphere_size*U)` with `sphere_size = 1`: `examples/example-a.py` lines 33 and 43. `none` is
an infinity. -/
noncomputable def dragEntry (F U : ℝ) : Option ℝ := if 6 * Real.pi * 1 * U = 0 then none else some (F / (6 * Real.pi * 1 * U))

/-- `drag_coefficient`: `examples/example-a.py` lines 31-43. The file holds velocities of all particles but forces of the
spheres only; the division raises if there are dumbbells (unless there is exactly one sphere, whose force is then divided
by all velocities, which is left out here). -/
noncomputable def drag_coefficient (data : Saved) : Option (List (Option ℝ)) := do
  let forces ← data.forces[0]?
  let speeds ← speeds_of_particles data
  if forces.Fa.length = speeds.length then
    some (List.zipWith (fun F U => dragEntry (F 2) (U 2)) forces.Fa speeds)
  else none

/-- `examples/example-a.py` lines 44-50: what is plotted beside the eight values from the paper. `N` is
`(number_of_particles+1)//2` and the plotted part `drag_coefficient[N-1:]`. A plot raises if it has not as many values as
places: the first if there are not `N` values, the second if `N` is not 8. -/
noncomputable def example_a (data : Saved) : Option (List (Option ℝ)) := do
  let forces ← data.forces[0]?
  let drag ← drag_coefficient data
  let N := (forces.Fa.length + 1) / 2
  let plotted := drag.drop (N - 1)
  if plotted.length = N ∧ N = 8 then some plotted else none

/-- `phi`: `examples/example-c.py` lines 48-49. -/
noncomputable def example_c_phi (data : Saved) : Option ℝ := do
  let c0 ← data.positions[0]?
  let x1 ← (savedCentres c0)[1]?
  let x0 ← (savedCentres c0)[0]?
  let side_length := 2 * (x1 2 - x0 2)
  if side_length ^ 3 = 0 then none else some (8 * 4 / 3 * Real.pi / side_length ^ 3)

/-- `sedimentation_speed`: `examples/example-c.py` lines 38-46. -/
noncomputable def example_c_speed (data : Saved) : Option ℝ := do
  let speeds ← speeds_of_particles data
  let U ← speeds[0]?
  some (-(U 2) * 6 * Real.pi)

end SD
