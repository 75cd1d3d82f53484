import Verif.Model.Frame
import Verif.Model.Inputs

/-!
# `setups/inputs.py`: the listed input numbers

The negative numbers, which are used by the project's tests only (`setups/tests/inputs.py`), are not modelled. The
arguments `last_velocities`, `skip_computation` and `grand_resistance_matrix_fte` are not used by any listed input.
-/

set_option autoImplicit false

namespace SD

/-- A row of three numbers among the inputs: `setups/inputs.py` lines 89, 90, 92, 93, 95, 96, 98, 99, 101, 103, 104. -/
def givenRow (v : Vec3) : OVec3 := fun k => some (v k)

/-- A matrix of numbers among the inputs: `setups/inputs.py` lines 91, 97, 102. -/
def givenMat (m : Mat3) : OMat3 := fun i j => some (m i j)

/-- A row of placeholders: `functions/simulation_tools.py` lines 31, 32, 38-41, 47, 48. -/
def pippaRow : OVec3 := fun _ => none

/-- A matrix of placeholders: `functions/simulation_tools.py` lines 33-36, 42-45. -/
def pippaMat : OMat3 := fun _ _ => none

/-- `empty_vectors`: `functions/simulation_tools.py` lines 10-49 (the angular velocities and the condensed
vectors are not used by the solver and are left out). -/
def empty_vectors (P : PosData) : Inputs where
  Fa := List.replicate P.Ns pippaRow
  Ta := List.replicate P.Ns pippaRow
  Sa := List.replicate P.Ns pippaMat
  Fb := List.replicate P.Nd pippaRow
  DFb := List.replicate P.Nd pippaRow
  Ua := List.replicate P.Ns pippaRow
  Ea := List.replicate P.Ns pippaMat
  Ub := List.replicate P.Nd pippaRow
  HalfDUb := List.replicate P.Nd pippaRow

/-- The values that the chosen form of input sets to zero beforehand: `setups/inputs.py` lines 88-104. -/
def defaultInputs (form : InputForm) (P : PosData) : Inputs :=
  let v := empty_vectors P
  let zs := List.replicate P.Ns (givenRow 0)
  let zd := List.replicate P.Nd (givenRow 0)
  let ms := List.replicate P.Ns (givenMat 0)
  match form with
  | .fte => { v with Fa := zs, Ta := zs, Ea := ms, Fb := zd, DFb := zd }
  | .fts => { v with Fa := zs, Ta := zs, Sa := ms, Fb := zd, DFb := zd }
  | .ufte => { v with Ta := zs, Ea := ms, Fb := zd, DFb := zd }
  | .ufteu => v
  | .duf => v

/-- The defaults: `setups/inputs.py` lines 75-107. -/
def defaultUserInput (form : InputForm) (P : PosData) : UserInput where
  inp := defaultInputs form P
  U := 0
  O := 0
  centre := 0
  Ot := 0
  Et := 0
  bl := 0
  tr := 0
  mu := 1

/-- The box of `simple_cubic_8`: `setups/functions_positions.py` lines 409-410. -/
noncomputable def simple_cubic_8_box (s : ℝ) : Vec3 × Vec3 :=
  (fun _ => -s / 2, fun _ => s / 2)

/-- The spring force of one dumbbell: `setups/inputs.py` lines 130-136, with `natural_deltax = 2` and
`spring_constant = -1`. -/
noncomputable def springForce (dx : Vec3) : Vec3 := fun k => -1 * (dx k - 2 * dx k / norm3 dx)

open Classical in
/-- `input_ftsuoe`: `setups/inputs.py` lines 14-193 for the input numbers from 0 on. `none` is an exception: an
unlisted number (lines 186-188), or the repulsion subtracted from placeholders (`setups/functions_inputs.py` lines
74-80). The spring force of a dumbbell of length zero is `nan` in the code; here `none` as well. Lines 157-158 give the
velocities for input 5; lines 171-176 assign slices of lists, which may change their length. -/
noncomputable def input_ftsuoe (n : ℕ) (form : InputForm) (P : PosData) (frameno timestep : ℝ) : Option UserInput :=
  let u := defaultUserInput form P
  let inp := u.inp
  if n = 1 then
    some { u with inp := { inp with Fa := List.replicate P.Ns (givenRow ![0, 0, -1]) } }
  else if n = 2 then
    some { u with
      inp := { inp with Fa := List.replicate P.Ns (givenRow ![0, 0, -1]) }
      bl := (simple_cubic_8_box 8).1
      tr := (simple_cubic_8_box 8).2 }
  else if n = 3 then
    if ∃ i < P.Nd, norm3 (P.dumbDx i) = 0 then none
    else
      (oscillatory_shear (1 / 3) 10 frameno timestep 0 ![2.25, 0, 2.25] P.Ns 1 false false).map fun w =>
        { u with
          inp := { inp with
            DFb := (List.range P.Nd).map fun i => givenRow (springForce (P.dumbDx i))
            Ea := w.Ea_in.map givenMat }
          U := w.U_infinity
          O := w.O_infinity
          centre := w.centre_of_background_flow
          Ot := w.Ot_infinity
          Et := w.Et_infinity }
  else if n = 4 then
    (floatsL inp.Fa).bind fun Fa => (floatsL inp.Fb).bind fun Fb => (floatsL inp.DFb).bind fun DFb =>
      let F := repulsion_forces 50 20 P 0 (asArr Fa) (asArr Fb) (asArr DFb)
      some { u with
        inp := { inp with
          Fa := (List.range P.Ns).map fun i => givenRow (F.1 i)
          Fb := (List.range P.Nd).map fun i => givenRow (F.2.1 i)
          DFb := (List.range P.Nd).map fun i => givenRow (F.2.2 i) } }
  else if n = 5 then
    some { u with
      inp := { inp with
        Ua := List.replicate (P.Ns / 2) (givenRow ![-1, 0, 0])
          ++ List.replicate (P.Ns - P.Ns / 2) (givenRow ![1, 0, 0]) } }
  else if n = 6 then
    some { u with
      inp := { inp with
        Ua := (List.replicate 45 (givenRow ![-1, 0, 0]) ++ List.replicate 45 (givenRow ![1, 0, 0]))
          ++ inp.Ua.drop 90
        Fa := inp.Fa.take 90 ++ List.replicate 9 (givenRow ![10, 0, 0]) } }
  else if n = 7 then
    let w := constant_shear 1 frameno timestep 0 P.Ns
    some { u with
      inp := { inp with Ea := w.Ea_in.map givenMat }
      U := w.U_infinity
      O := w.O_infinity
      centre := w.centre_of_background_flow
      Ot := w.Ot_infinity
      Et := w.Et_infinity }
  else none

end SD
