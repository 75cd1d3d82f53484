import Verif.Model.Placement
import Verif.Model.ShippedInputs

/-!
# `setups/positions.py`: the listed position setups

The negative numbers, which only the project's tests use (`setups/tests/positions.py`), are not modelled. Streams of
random numbers are as in `Verif.Model.Placement`.
-/

set_option autoImplicit false

namespace SD

/-- How a position setup can fail: a random placement (setups 5, 6), a missing file or frame (setup 8,
`functions/shared.py` lines 299-309), an unlisted number (`setups/positions.py` lines 176-178). -/
inductive SetupError where
  | placing (e : PlaceError)
  | file
  | unlisted

/-- The arrays of a setup: `setups/positions.py` lines 180-181, without the rotations. A dumbbell is its row of
`dumbbell_positions` with its row of `dumbbell_deltax`. -/
structure SetupRows where
  sphere_sizes : List ℝ
  sphere_positions : List Vec3
  dumbbell_sizes : List ℝ
  dumbbells : List (Vec3 × Vec3)

/-- The same as a configuration: `setups/positions.py` lines 180-182 with `functions/shared.py` lines 195-199 (the
counts are those of the sizes). The rotations are `add_sphere_rotations_to_positions` of `[[1,0,0],[0,0,1]]`, lines 45,
59, 77, 88, 108, 126, 159 of `setups/positions.py`. -/
noncomputable def SetupRows.config (r : SetupRows) : Config :=
  let pos : ℕ → Vec3 := fun i => r.sphere_positions.getD i 0
  let size : ℕ → ℝ := fun i => r.sphere_sizes.getD i 0
  { P :=
      { Ns := r.sphere_sizes.length
        Nd := r.dumbbell_sizes.length
        sphereSize := size
        spherePos := pos
        dumbSize := fun i => r.dumbbell_sizes.getD i 0
        dumbPos := fun i => (r.dumbbells.getD i 0).1
        dumbDx := fun i => (r.dumbbells.getD i 0).2 }
    rots := defaultRots pos size }

/-- Setup 1, a row of 15 spheres: `setups/positions.py` lines 42-49. -/
def setup1 : SetupRows where
  sphere_sizes := (List.range 15).map fun _ => 1
  sphere_positions := (List.range 15).map fun (i : ℕ) => ![4 * i, 0, 0]
  dumbbell_sizes := []
  dumbbells := []

/-- Setup 2, three spheres: `setups/positions.py` lines 58-64. -/
def setup2 : SetupRows where
  sphere_sizes := [1, 1, 1]
  sphere_positions := [![-5, 0, 0], ![0, 0, 0], ![7, 0, 0]]
  dumbbell_sizes := []
  dumbbells := []

/-- The positions of `simple_cubic_8`: `setups/functions_positions.py` lines 404-408. Its box is
`simple_cubic_8_box`. -/
noncomputable def simple_cubic_8 (s : ℝ) : List Vec3 :=
  ([-s / 4, s / 4] : List ℝ).flatMap fun i => ([-s / 4, s / 4] : List ℝ).flatMap fun j =>
    ([-s / 4, s / 4] : List ℝ).map fun k => ![i, j, k]

/-- Setup 3, a cube of eight spheres: `setups/positions.py` lines 73-82. -/
noncomputable def setup3 : SetupRows where
  sphere_sizes := (List.range 8).map fun _ => 1
  sphere_positions := simple_cubic_8 8
  dumbbell_sizes := []
  dumbbells := []

/-- Setup 4, two spheres and two dumbbells: `setups/positions.py` lines 87-94. -/
noncomputable def setup4 : SetupRows where
  sphere_sizes := [1, 1]
  sphere_positions := [![0, 0, 0], ![4.5, 0, 4.5]]
  dumbbell_sizes := [0.1, 0.1]
  dumbbells := [(![4.5, 0, 0], ![√2, 0, √2]), (![0, 0, 4.5], ![√2, 0, √2])]

/-- Setup 5 around the placement `setup5`: `setups/positions.py` lines 99-112. -/
def setup5Rows (ps : List Vec3) : SetupRows where
  sphere_sizes := (List.range 41).map fun _ => 1
  sphere_positions := ps
  dumbbell_sizes := []
  dumbbells := []

/-- Setup 6 around the placement with `setup6Args`: `setups/positions.py` lines 117-135. -/
noncomputable def setup6Rows (ds : List (Vec3 × Vec3)) : SetupRows where
  sphere_sizes := (List.range (45 * 2)).map fun _ => 1
  sphere_positions := setup6Walls
  dumbbell_sizes := setup6Args.sizes
  dumbbells := ds

/-- Setup 7, two walls with nine spheres between them: `setups/positions.py` lines 143-166. -/
noncomputable def setup7 : SetupRows where
  sphere_sizes := (List.range (45 * 2 + 9)).map fun _ => 1
  sphere_positions :=
    let sep : ℝ := 2.00001
    (((List.range 45).map fun (i : ℕ) => ![sep * i - (45 / 2 : ℕ) * sep, 0, -5])
      ++ (List.range 45).map fun (i : ℕ) => ![sep * i - (45 / 2 : ℕ) * sep, 0, 5])
    ++ ([-4, 0, 4] : List ℝ).flatMap fun i => ([-2.5, 0, 2.5] : List ℝ).map fun j => ![i, 0, j]
  dumbbell_sizes := []
  dumbbells := []

/-- `same_setup_as`: `functions/shared.py` lines 293-315, for the content of the file and a frame number from 0 on. -/
def same_setup_as (d : Saved) (frameno : ℕ) (sphere_size dumbbell_size : ℝ) : Option Config :=
  d.positions[frameno]?.map fun c =>
    { P := { c.P with sphereSize := fun _ => sphere_size, dumbSize := fun _ => dumbbell_size }
      rots := defaultRots c.P.spherePos fun _ => sphere_size }

/-- `pos_setup`: `setups/positions.py` lines 21-182 for the numbers from 0 on. `file` is the content of
`output/FILENAME.npz` if there is such a file; the default sizes of `same_setup_as` are 1 and 0.1 (`functions/shared.py`
line 293). -/
noncomputable def pos_setup (file : Option Saved) (fuel : ℕ) (w : ℕ → ℝ) (n : ℕ) : Except SetupError Config :=
  if n = 1 then .ok setup1.config
  else if n = 2 then .ok setup2.config
  else if n = 3 then .ok setup3.config
  else if n = 4 then .ok setup4.config
  else if n = 5 then
    match setup5 fuel w 0 with
    | .ok (ps, _) => .ok (setup5Rows ps).config
    | .error e => .error (.placing e)
  else if n = 6 then
    match randomise_dumbbells fuel w 0 setup6Args with
    | .ok (ds, _) => .ok (setup6Rows ds).config
    | .error e => .error (.placing e)
  else if n = 7 then .ok setup7.config
  else if n = 8 then
    match file.bind fun d => same_setup_as d 0 1 0.1 with
    | some c => .ok c
    | none => .error .file
  else .error .unlisted

end SD
