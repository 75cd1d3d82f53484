import Verif.Model.SimTools

/-!
# `functions/timestepping.py`: `generate_output_FTSUOE`, from the grand resistance matrix onwards

The placeholder string `'pippa'` of `empty_vectors` is `none`. An exception (a `throw_error`, a
`LinAlgError`, or the failing conversion of a placeholder to `float`) is `none` as a result.
-/

set_option autoImplicit false

namespace SD

/-- A 3-vector of inputs, each a number or the placeholder `'pippa'`:
`functions/simulation_tools.py` lines 30-31. -/
abbrev OVec3 := Fin 3 → Option ℝ

/-- A 3x3 matrix of inputs, each a number or the placeholder: `functions/simulation_tools.py`
lines 32-35. -/
abbrev OMat3 := Fin 3 → Fin 3 → Option ℝ

/-- The placeholder row `['pippa', 'pippa', 'pippa']`: `functions/timestepping.py` line 360. -/
def isPippa (v : OVec3) : Bool := (v 0).isNone && (v 1).isNone && (v 2).isNone

/-- `Ua_in.count(['pippa', 'pippa', 'pippa'])`: `functions/timestepping.py` lines 360, 408, 410,
475. -/
def countPippa (l : List OVec3) : ℕ := l.countP isPippa

/-- Conversion of a row to floats; fails on a placeholder (`functions/timestepping.py` lines 319,
350, 372, 428, 488). -/
def floats3 (v : OVec3) : Option Vec3 :=
  (v 0).bind fun a => (v 1).bind fun b => (v 2).bind fun c => some ![a, b, c]

/-- Use of a 3x3 matrix in `condense_and_flatten`; multiplying a placeholder raises and the
caller exits (`functions/simulation_tools.py` line 77, `functions/timestepping.py` lines 313-318). -/
def floats33 (m : OMat3) : Option Mat3 :=
  (floats3 (m 0)).bind fun a => (floats3 (m 1)).bind fun b => (floats3 (m 2)).bind fun c =>
    some ![a, b, c]

/-- Float conversion of a list of rows (same lines as `floats3`). -/
def floatsL (l : List OVec3) : Option (List Vec3) := l.mapM floats3

/-- The inputs returned by `input_ftsuoe` (`setups/inputs.py` lines 190-193) that the solver uses. -/
structure Inputs where
  Fa : List OVec3
  Ta : List OVec3
  Sa : List OMat3
  Fb : List OVec3
  DFb : List OVec3
  Ua : List OVec3
  Ea : List OMat3
  Ub : List OVec3
  HalfDUb : List OVec3

/-- `construct_force_vector_from_fts` (`functions/simulation_tools.py` lines 101-134) followed by
the conversion to floats (`functions/timestepping.py` lines 319, 350, 372, 428, 488); `none` when a
placeholder is met or a stress matrix is missing. Only the lists selected by the particle counts
are inspected. -/
noncomputable def constructForceVector? (Ns Nd : ℕ) (f t : List OVec3) (s : List OMat3)
    (fb dfb : List OVec3) : Option (List ℝ) :=
  if s.length < Ns then none else
  ((s.take Ns).mapM floats33).bind fun s' =>
    if Ns = 0 ∧ Nd = 0 then some (construct_force_vector_from_fts Ns Nd [] [] s' [] [])
    else if 0 < Ns ∧ Nd = 0 then
      (floatsL f).bind fun f' => (floatsL t).bind fun t' =>
        some (construct_force_vector_from_fts Ns Nd f' t' s' [] [])
    else if Ns = 0 ∧ 0 < Nd then
      (floatsL fb).bind fun fb' => (floatsL dfb).bind fun dfb' =>
        some (construct_force_vector_from_fts Ns Nd [] [] s' fb' dfb')
    else
      (floatsL f).bind fun f' => (floatsL t).bind fun t' =>
      (floatsL fb).bind fun fb' => (floatsL dfb).bind fun dfb' =>
        some (construct_force_vector_from_fts Ns Nd f' t' s' fb' dfb')

/-- The outputs of `generate_output_FTSUOE` that are forces or velocities
(`functions/timestepping.py` lines 549-550). -/
structure Outputs where
  Fa : List Vec3
  Ta : List Vec3
  Sa : List Mat3
  Fb : List Vec3
  DFb : List Vec3
  Ua : List Vec3
  Oa : List Vec3
  Ea : List Mat3
  Ub : List Vec3
  HalfDUb : List Vec3

/-- The input forms with a solver branch (`functions/timestepping.py` lines 312, 327, 359, 406,
473). The form `stokes_drag_dumbbells_only` (lines 266-279) always raises, because it slices with
`Nbeads/2`, and is not modelled; any other string leaves the outputs unassigned (an error). -/
inductive InputForm
  | fts | fte | ufte | ufteu | duf
  deriving DecidableEq

/-- `'fts'` branch: `functions/timestepping.py` lines 312-325 (and the float conversions of the
echoed inputs, lines 518-524, which cannot fail here for `Fa`, `Ta` when there are spheres because
they were already converted). With no spheres `Ea_out = Ea_in` (line 325). The stresslets and
dumbbell forces are echoed unconverted in the code; they have been converted inside the force
vector. -/
noncomputable def solveFTS (Ns Nd : ℕ) (R : NDMat) (inp : Inputs) : Option Outputs :=
  (constructForceVector? Ns Nd inp.Fa inp.Ta inp.Sa inp.Fb inp.DFb).bind fun fv =>
  (R.solve fv).bind fun vv =>
    let d := deconstruct_velocity_vector_for_fts Ns Nd vv
    (floatsL inp.Fa).bind fun Fa => (floatsL inp.Ta).bind fun Ta =>
    (inp.Sa.mapM floats33).bind fun Sa =>
    (floatsL inp.Fb).bind fun Fb => (floatsL inp.DFb).bind fun DFb =>
    (if Ns = 0 then inp.Ea.mapM floats33 else some d.e).bind fun Ea =>
      some { Fa := Fa, Ta := Ta, Sa := Sa, Fb := Fb, DFb := DFb,
             Ua := d.u, Oa := d.o, Ea := Ea, Ub := d.ub, HalfDUb := d.hdub }

/-- `'fte'` branch: `functions/timestepping.py` lines 327-357 and 518-524. The second call of
`input_ftsuoe` (lines 336-344) is the source of `inp`. -/
noncomputable def solveFTE (Ns Nd : ℕ) (R : NDMat) (inp : Inputs) : Option Outputs :=
  (fts_to_fte_matrix Ns Nd R).bind fun R' =>
  (constructForceVector? Ns Nd inp.Fa inp.Ta inp.Ea inp.Fb inp.DFb).bind fun fv =>
  (R'.solve fv).bind fun vv =>
    let d := deconstruct_velocity_vector_for_fts Ns Nd vv
    (floatsL inp.Fa).bind fun Fa => (floatsL inp.Ta).bind fun Ta =>
    (inp.Ea.mapM floats33).bind fun Ea =>
    (floatsL inp.Fb).bind fun Fb => (floatsL inp.DFb).bind fun DFb =>
      some { Fa := Fa, Ta := Ta, Sa := d.e, Fb := Fb, DFb := DFb,
             Ua := d.u, Oa := d.o, Ea := Ea, Ub := d.ub, HalfDUb := d.hdub }

/-- `'ufte'` branch: `functions/timestepping.py` lines 359-404 and 518-524. With the
wall-force extraction flag set the branch reshapes with a float length (line 404) and leaves
`Fa_out` etc. unassigned, so it always raises. -/
noncomputable def solveUFTE (extract : Bool) (Ns Nd : ℕ) (R : NDMat) (inp : Inputs) :
    Option Outputs :=
  let k := Ns - countPippa inp.Ua
  (constructForceVector? Ns Nd (inp.Ua.take k ++ (inp.Fa.take Ns).drop k) inp.Ta inp.Ea
    inp.Fb inp.DFb).bind fun fv =>
  (fts_to_fte_matrix Ns Nd R).bind fun R' =>
  (fte_to_ufte_matrix k Ns Nd R').bind fun R'' =>
    if extract then none else
    (R''.solve fv).bind fun vv =>
      let d := deconstruct_velocity_vector_for_fts Ns Nd vv
      (floatsL ((inp.Fa.take Ns).drop k)).bind fun Fr =>
      (floatsL (inp.Ua.take k)).bind fun Uf =>
      (floatsL inp.Ta).bind fun Ta => (inp.Ea.mapM floats33).bind fun Ea =>
      (floatsL inp.Fb).bind fun Fb => (floatsL inp.DFb).bind fun DFb =>
        some { Fa := d.u.take k ++ Fr, Ta := Ta, Sa := d.e, Fb := Fb, DFb := DFb,
               Ua := Uf ++ d.u.drop k, Oa := d.o, Ea := Ea, Ub := d.ub, HalfDUb := d.hdub }

/-- `'ufteu'` branch: `functions/timestepping.py` lines 406-471 and 518-524. -/
noncomputable def solveUFTEU (Ns Nd : ℕ) (R : NDMat) (inp : Inputs) : Option Outputs :=
  let k := Ns - countPippa inp.Ua
  let kd := Nd - countPippa inp.Ub
  (constructForceVector? Ns Nd (inp.Ua.take k ++ (inp.Fa.take Ns).drop k) inp.Ta inp.Ea
    (inp.Ub.take kd ++ (inp.Fb.take Nd).drop kd)
    (inp.HalfDUb.take kd ++ (inp.DFb.take Nd).drop kd)).bind fun fv =>
  (fts_to_fte_matrix Ns Nd R).bind fun R' =>
  (fte_to_ufte_matrix k Ns Nd R').bind fun R'' =>
  (ufte_to_ufteu_matrix kd k Ns Nd R'').bind fun R''' =>
  (R'''.solve fv).bind fun vv =>
    let d := deconstruct_velocity_vector_for_fts Ns Nd vv
    (floatsL ((inp.Fa.take Ns).drop k)).bind fun Fr =>
    (floatsL (inp.Ua.take k)).bind fun Uf =>
    (floatsL inp.Ta).bind fun Ta => (inp.Ea.mapM floats33).bind fun Ea =>
    (floatsL ((inp.Fb.take Nd).drop kd)).bind fun Fbr =>
    (floatsL (inp.Ub.take kd)).bind fun Ubf =>
    (floatsL ((inp.DFb.take Nd).drop kd)).bind fun DFbr =>
    (floatsL (inp.HalfDUb.take kd)).bind fun HDf =>
      some { Fa := d.u.take k ++ Fr, Ta := Ta, Sa := d.e,
             Fb := d.ub.take kd ++ Fbr, DFb := d.hdub.take kd ++ DFbr,
             Ua := Uf ++ d.u.drop k, Oa := d.o, Ea := Ea,
             Ub := Ubf ++ d.ub.drop kd, HalfDUb := HDf ++ d.hdub.drop kd }

/-- `'duf'` branch: `functions/timestepping.py` lines 473-516 and 518-524. -/
noncomputable def solveDUF (Ns Nd : ℕ) (R : NDMat) (inp : Inputs) : Option Outputs :=
  let kd := Nd - countPippa inp.Ub
  (constructForceVector? Ns Nd inp.Fa inp.Ta inp.Ea
    (inp.Ub.take kd ++ (inp.Fb.take Nd).drop kd)
    (inp.HalfDUb.take kd ++ (inp.DFb.take Nd).drop kd)).bind fun fv =>
  (fts_to_duf_matrix kd Nd R).bind fun R' =>
  (R'.solve fv).bind fun vv =>
    let d := deconstruct_velocity_vector_for_fts Ns Nd vv
    (floatsL ((inp.Fb.take Nd).drop kd)).bind fun Fbr =>
    (floatsL (inp.Ub.take kd)).bind fun Ubf =>
    (floatsL ((inp.DFb.take Nd).drop kd)).bind fun DFbr =>
    (floatsL (inp.HalfDUb.take kd)).bind fun HDf =>
    (floatsL inp.Fa).bind fun Fa => (floatsL inp.Ta).bind fun Ta =>
    (inp.Ea.mapM floats33).bind fun Ea =>
      some { Fa := Fa, Ta := Ta, Sa := d.e,
             Fb := d.ub.take kd ++ Fbr, DFb := d.hdub.take kd ++ DFbr,
             Ua := [], Oa := [], Ea := Ea,
             Ub := Ubf ++ d.ub.drop kd, HalfDUb := HDf ++ d.hdub.drop kd }

/-- The solving part of `generate_output_FTSUOE`: `functions/timestepping.py` lines 308-524. -/
noncomputable def solveForm (form : InputForm) (extract : Bool) (Ns Nd : ℕ) (R : NDMat)
    (inp : Inputs) : Option Outputs :=
  match form with
  | .fts => solveFTS Ns Nd R inp
  | .fte => solveFTE Ns Nd R inp
  | .ufte => solveUFTE extract Ns Nd R inp
  | .ufteu => solveUFTEU Ns Nd R inp
  | .duf => solveDUF Ns Nd R inp

/-- The start-up check on the input form (`run_simulation.py` lines 744-751): with no spheres only
`fts` and `duf` are allowed, with spheres `duf` is not. -/
def formAllowed (form : InputForm) (Ns : ℕ) : Prop :=
  (Ns = 0 → form = .fts ∨ form = .duf) ∧ (0 < Ns → form ≠ .duf)

end SD
