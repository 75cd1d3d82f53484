import Verif.Model.GrandResistance
import Verif.Model.Solve
import Verif.Model.Timestep

/-!
# `run_simulation.py`: one frame, the run, the saved files

`none` is an exception, which ends the program. Timings, printing and graphics are not modelled.
The user's input function, the data tables, and the two far/near-field generators for periodic boxes are
parameters (`World`).
-/

set_option autoImplicit false

namespace SD

/-- `posdata`: `functions/shared.py` lines 195-196, with the sphere rotations. -/
structure Config where
  P : PosData
  rots : Rots

/-- `last_velocities`, and the velocities of a stage: `run_simulation.py` lines 225, 299-307. An entry that
is the number 0 because there are no such particles is the zero function. -/
structure Vel where
  Ua : ℕ → Vec3
  Ub : ℕ → Vec3
  HalfDUb : ℕ → Vec3
  Oa : ℕ → Vec3

/-- The blank velocities of `run_simulation.py` lines 222-225. -/
def Vel.blank : Vel := ⟨fun _ _ => 0, fun _ _ => 0, fun _ _ => 0, fun _ _ => 0⟩

/-- What `input_ftsuoe` returns: `setups/inputs.py` lines 190-193 (without the description and the condensed
vectors, which are not used). -/
structure UserInput where
  inp : Inputs
  U : Vec3
  O : Vec3
  centre : Vec3
  Ot : Vec3
  Et : Mat3
  bl : Vec3
  tr : Vec3
  mu : ℝ

/-- Parameters: the scalar table (`resistance_scalars/data.py`), the input function
(`setups/inputs.py` lines 14-16: positions, frame number, time step, last velocities, resistance matrix), and
the generators for periodic boxes (`functions/generate_Minfinity_periodic.py`,
`functions/generate_R2Bexact.py` with a box). The run is modelled for any such generators; those of the code are
filled in by `boxWorld` (`Model/R2BPeriodic.lean`). -/
structure World where
  table : ScalarTable
  input_ftsuoe : Config → ℝ → ℝ → Vel → Option NDMat → Option UserInput
  Minfinity_periodic : PosData → Vec3 → Vec3 → ℝ → Vec3 → Mat3 → NDMat
  R2Bexact_periodic : PosData → ℝ → ℝ → Vec3 → Vec3 → Vec3 → Mat3 → Option NDMat

/-- `timestepping_scheme`: `settings.py` line 76; any other string is an error (`run_simulation.py` line
586). -/
inductive Scheme
  | euler | ab2 | rk4 | other
  deriving DecidableEq

/-- The settings: `settings.py` lines 27-153. `start` is `checkpoint_start_from_frame`
(`setups/positions.py` line 233). Negative intervals are not modelled. -/
structure Settings where
  fully_2d_problem : Bool
  timestep : ℝ
  num_frames : ℕ
  input_form : InputForm
  invert_m_every : ℕ
  cutoff_factor : ℝ
  scheme : Scheme
  rk4_each_stage : Bool
  bead_bead_interactions : Bool
  explosion_protection : Bool
  start_saving : ℕ
  save_positions_every : ℕ
  save_forces_every : ℕ
  save_to_temp : Bool
  save_to_temp_every : ℕ
  extract : Bool
  use_drag_Minfinity : Bool
  use_Minfinity_only : Bool
  start : ℕ

/-- `not np.array_equal(box_bottom_left - box_top_right, [0, 0, 0])`: `functions/timestepping.py` line 282,
`run_simulation.py` line 181. -/
def isPeriodic (bl tr : Vec3) : Prop := ¬ ∀ k, bl k - tr k = 0

/-- `generate_grand_resistance_matrix_periodic`: `functions/generate_grand_resistance_matrix.py` lines
114-198. With the drag approximation it indexes with `i/3`, a float, which raises if there is any particle;
with no particle at all the diagonal is empty, and this case is not modelled (it is also `none`). -/
noncomputable def generate_grand_resistance_matrix_periodic (W : World) (S : Settings) (P : PosData)
    (last : NDMat) (regenerate : Bool) (u : UserInput) : Option (NDMat × NDMat) := do
  let Mi ←
    (if S.use_drag_Minfinity = false then
      if regenerate then (W.Minfinity_periodic P u.bl u.tr u.mu u.Ot u.Et).inv else some last
    else none : Option NDMat)
  if S.use_Minfinity_only = false then
    let R2B ← W.R2Bexact_periodic P S.cutoff_factor u.mu u.bl u.tr u.Ot u.Et
    some (Mi.add R2B, Mi)
  else some (Mi, Mi)

/-- What `generate_output_FTSUOE` returns that is used: `functions/timestepping.py` lines 549-554. -/
structure Stage where
  out : Outputs
  cache : NDMat
  U : Vec3
  O : Vec3
  centre : Vec3
  Ot : Vec3
  Et : Mat3

open Classical in
/-- The grand resistance matrix of a stage: `functions/timestepping.py` lines 281-306. `Ea_in[0]` raises on an
empty list (line 293). -/
noncomputable def stageResistance (W : World) (S : Settings) (c : Config) (last : NDMat)
    (regenerate : Bool) (u : UserInput) : Option (NDMat × NDMat) :=
  if isPeriodic u.bl u.tr then
    if u.inp.Ea = [] then none
    else generate_grand_resistance_matrix_periodic W S c.P last regenerate u
  else generate_grand_resistance_matrix W.table c.P last regenerate S.cutoff_factor S.use_drag_Minfinity
    S.use_Minfinity_only u.mu S.bead_bead_interactions

/-- `generate_output_FTSUOE`: `functions/timestepping.py` lines 230-554. In the form `fte` the inputs are
asked for again with the resistance matrix (lines 336-344). -/
noncomputable def generate_output_FTSUOE (W : World) (S : Settings) (c : Config) (frameno : ℝ)
    (last : NDMat) (regenerate : Bool) (lastVel : Vel) : Option Stage := do
  let u ← W.input_ftsuoe c frameno S.timestep lastVel none
  let (R, cache) ← stageResistance W S c last regenerate u
  let u2 ←
    (if S.input_form = .fte then do
      let R' ← fts_to_fte_matrix c.P.Ns c.P.Nd R
      W.input_ftsuoe c frameno S.timestep lastVel (some R')
    else some u : Option UserInput)
  let out ← solveForm S.input_form S.extract c.P.Ns c.P.Nd R u2.inp
  some { out := out, cache := cache, U := u2.U, O := u2.O, centre := u2.centre, Ot := u2.Ot, Et := u2.Et }

/-- A list of rows as an array: `functions/timestepping.py` lines 518-524. -/
def asArr (l : List Vec3) : ℕ → Vec3 := fun i => l.getD i 0

/-- A list of matrices as an array: `functions/timestepping.py` line 520. -/
def asArrM (l : List Mat3) : ℕ → Mat3 := fun i => l.getD i 0

/-- The velocities of a stage with the background flow: `run_simulation.py` lines 252-255 and 278-281 (and
348-351, 362-365; 400-403, 414-417; 449-452, 463-466; 497-504). The flow is that of the stage `st`, evaluated at the positions of
`c`; `Ed` is the list of strains whose first entry the dumbbells use. Indexing a missing strain raises. -/
noncomputable def stageVel (c : Config) (st : Stage) (Ed : List Mat3) : Option Vel :=
  if 0 < c.P.Ns ∧ st.out.Ea.length < c.P.Ns then none
  else if 0 < c.P.Nd ∧ Ed = [] then none
  else
    let sp := add_background_flow_spheres (asArr st.out.Ua) (asArr st.out.Oa) (asArrM st.out.Ea) st.U st.O
      c.P.spherePos st.centre
    let db := add_background_flow_dumbbells (asArr st.out.Ub) (asArr st.out.HalfDUb) (Ed.headD 0) st.U st.O
      c.P.dumbPos c.P.dumbDx st.centre
    some
      { Ua := if 0 < c.P.Ns then sp.1 else fun _ _ => 0
        Oa := if 0 < c.P.Ns then sp.2 else fun _ _ => 0
        Ub := if 0 < c.P.Nd then db.1 else fun _ _ => 0
        HalfDUb := if 0 < c.P.Nd then db.2 else fun _ _ => 0 }

/-- `Ua[:, 1] = 0`: `run_simulation.py` lines 256-257, 523-524. -/
def zeroY (u : ℕ → Vec3) : ℕ → Vec3 := fun i k => if k = 1 then 0 else u i k

open Classical in
/-- `if periodic: x = wrap_around(x, ...)`: `run_simulation.py` lines 273-276, 294-297, 357-360, 372-375, 409-412,
424-427, 458-461, 473-476, 527-530, 550-553, for the whole array. -/
noncomputable def wrapIf (bl tr Ot : Vec3) (Et : Mat3) (x : ℕ → Vec3) : Option (ℕ → Vec3) :=
  if isPeriodic bl tr then
    if ∀ i, (wrap_around (x i) bl tr Ot Et).isSome then
      some fun i => (wrap_around (x i) bl tr Ot Et).getD (x i)
    else none
  else some x

/-- The forces of a frame that are saved: `run_simulation.py` lines 309-313, 563-583. The force on the wall
due to the dumbbells is always zero (see `solveUFTE`) and is left out. -/
structure Forces where
  Fa : List Vec3
  Fb : List Vec3
  DFb : List Vec3
  Sa : List Mat3

/-- The outcome of the time step inside a frame: `run_simulation.py` lines 591-593, and the globals assigned in
lines 234-583. -/
structure StepResult where
  new : Config
  error : Bool
  cache : NDMat
  lastVel : Vel
  forces : Forces

/-- `Fa_out = np.asarray(Fa_out_k1)`: `run_simulation.py` lines 309-313. -/
def Outputs.forces (o : Outputs) : Forces := ⟨o.Fa, o.Fb, o.DFb, o.Sa⟩

/-- The Euler and Adams-Bashforth branch: `run_simulation.py` lines 234-313. For `ab2` with dumbbells line 282
subtracts a string from a number and raises. -/
noncomputable def stepEulerAb2 (W : World) (S : Settings) (bl tr : Vec3) (frameno : ℕ) (c : Config)
    (lastVel : Vel) (cache : NDMat) (regenerate : Bool) : Option StepResult := do
  let st ← generate_output_FTSUOE W S c frameno cache regenerate lastVel
  let v0 ← stageVel c st st.out.Ea
  let v : Vel := if S.fully_2d_problem then { v0 with Ua := zeroY v0.Ua } else v0
  let spheres ←
    (if 0 < c.P.Ns then do
      let new := if S.scheme = .euler ∨ frameno - S.start = 0 then euler_timestep c.P.spherePos v.Ua S.timestep
        else ab2_timestep c.P.spherePos v.Ua lastVel.Ua S.timestep
      let rots ←
        (if S.scheme = .euler ∨ frameno - S.start = 0 then
          euler_timestep_rotation c.P.Ns c.P.spherePos c.rots new v.Oa S.timestep
        else ab2_timestep_rotation c.P.Ns c.P.spherePos c.rots new v.Oa lastVel.Oa S.timestep : Option Rots)
      let new ← wrapIf bl tr st.Ot st.Et new
      some (new, rots)
    else some (c.P.spherePos, c.rots) : Option ((ℕ → Vec3) × Rots))
  let dumbs ←
    (if 0 < c.P.Nd then
      if S.scheme = .euler then do
        let new := euler_timestep c.P.dumbPos v.Ub S.timestep
        let dx := euler_timestep c.P.dumbDx (fun i k => 2 * v.HalfDUb i k) S.timestep
        let error := did_something_go_wrong_with_dumbells false c.P.Nd dx S.explosion_protection
        let new ← wrapIf bl tr st.Ot st.Et new
        some (new, dx, error)
      else none
    else some (c.P.dumbPos, c.P.dumbDx, false) : Option ((ℕ → Vec3) × (ℕ → Vec3) × Bool))
  some
    { new := ⟨{ c.P with spherePos := spheres.1, dumbPos := dumbs.1, dumbDx := dumbs.2.1 }, spheres.2⟩
      error := dumbs.2.2
      cache := st.cache
      lastVel := v
      forces := st.out.forces }

/-- The configuration of an inner Runge-Kutta stage, reached from `c` with the velocities `v` in the time
`dt`: `run_simulation.py` lines 352-379, 404-431, 453-480. Also returns the error flag. -/
noncomputable def rk4Move (S : Settings) (bl tr : Vec3) (c : Config) (st : Stage) (v : Vel) (dt : ℝ)
    (error : Bool) : Option (Config × Bool) := do
  let spheres ←
    (if 0 < c.P.Ns then do
      let new := euler_timestep c.P.spherePos v.Ua dt
      let rots ← euler_timestep_rotation c.P.Ns c.P.spherePos c.rots new v.Oa dt
      let new ← wrapIf bl tr st.Ot st.Et new
      some (new, rots)
    else some (c.P.spherePos, c.rots) : Option ((ℕ → Vec3) × Rots))
  let dumbs ←
    (if 0 < c.P.Nd then do
      let new := euler_timestep c.P.dumbPos v.Ub dt
      let dx := euler_timestep c.P.dumbDx (fun i k => 2 * v.HalfDUb i k) dt
      let error := did_something_go_wrong_with_dumbells error c.P.Nd dx S.explosion_protection
      let new ← wrapIf bl tr st.Ot st.Et new
      some (new, dx, error)
    else some (c.P.dumbPos, c.P.dumbDx, error) : Option ((ℕ → Vec3) × (ℕ → Vec3) × Bool))
  some (⟨{ c.P with spherePos := spheres.1, dumbPos := dumbs.1, dumbDx := dumbs.2.1 }, spheres.2⟩, dumbs.2.2)

/-- `1/6 * (k1 + 2*k2 + 2*k3 + k4)`: `run_simulation.py` lines 510-517, 536-543. -/
noncomputable def blend (k1 k2 k3 k4 : ℕ → Vec3) : ℕ → Vec3 := fun i k =>
  1 / 6 * (k1 i k + 2 * k2 i k + 2 * k3 i k + k4 i k)

/-- The blend of four lists of rows: `run_simulation.py` lines 563-574. -/
noncomputable def blendRows (l1 l2 l3 l4 : List Vec3) : List Vec3 :=
  (List.range l1.length).map fun i k =>
    1 / 6 * (l1.getD i 0 k + 2 * l2.getD i 0 k + 2 * l3.getD i 0 k + l4.getD i 0 k)

/-- The blend of four lists of matrices: `run_simulation.py` lines 575-578. -/
noncomputable def blendMats (l1 l2 l3 l4 : List Mat3) : List Mat3 :=
  (List.range l1.length).map fun i k m =>
    1 / 6 * (l1.getD i 0 k m + 2 * l2.getD i 0 k m + 2 * l3.getD i 0 k m + l4.getD i 0 k m)

/-- The Runge-Kutta branch: `run_simulation.py` lines 315-583. Line 416 gives the second stage's dumbbells the
strain of the first stage. The inverse found in the last three stages is dropped. -/
noncomputable def stepRk4 (W : World) (S : Settings) (bl tr : Vec3) (frameno : ℕ) (c : Config)
    (lastVel : Vel) (cache : NDMat) (regenerate : Bool) : Option StepResult := do
  let st1 ← generate_output_FTSUOE W S c frameno cache regenerate lastVel
  let v1 ← stageVel c st1 st1.out.Ea
  let (c1, e1) ← rk4Move S bl tr c st1 v1 (S.timestep / 2) false
  let regenerate := regenerate && S.rk4_each_stage
  let st2 ← generate_output_FTSUOE W S c1 (frameno + 0.5) st1.cache regenerate lastVel
  let v2 ← stageVel c st2 st1.out.Ea
  let (c2, e2) ← rk4Move S bl tr c st2 v2 (S.timestep / 2) e1
  let st3 ← generate_output_FTSUOE W S c2 (frameno + 0.5) st1.cache regenerate lastVel
  let v3 ← stageVel c st3 st3.out.Ea
  let (c3, e3) ← rk4Move S bl tr c st3 v3 S.timestep e2
  let st4 ← generate_output_FTSUOE W S c3 (frameno + 1) st1.cache regenerate lastVel
  let v4 ← stageVel c st4 st4.out.Ea
  let Ua0 := blend v1.Ua v2.Ua v3.Ua v4.Ua
  let Ua := if S.fully_2d_problem then zeroY Ua0 else Ua0
  let Oa := blend v1.Oa v2.Oa v3.Oa v4.Oa
  let Ub := blend v1.Ub v2.Ub v3.Ub v4.Ub
  let DUb := fun i k => 2 * blend v1.HalfDUb v2.HalfDUb v3.HalfDUb v4.HalfDUb i k
  let spheres ←
    (if 0 < c.P.Ns then do
      let new ← wrapIf bl tr st1.Ot st1.Et (euler_timestep c.P.spherePos Ua S.timestep)
      let rots ← euler_timestep_rotation c.P.Ns c.P.spherePos c.rots new Oa S.timestep
      some (new, rots)
    else some (c.P.spherePos, c.rots) : Option ((ℕ → Vec3) × Rots))
  let dumbs ←
    (if 0 < c.P.Nd then do
      let new := euler_timestep c.P.dumbPos Ub S.timestep
      let dx := euler_timestep c.P.dumbDx DUb S.timestep
      let error := did_something_go_wrong_with_dumbells e3 c.P.Nd dx S.explosion_protection
      let new ← wrapIf bl tr st1.Ot st1.Et new
      some (new, dx, error)
    else some (c.P.dumbPos, c.P.dumbDx, e3) : Option ((ℕ → Vec3) × (ℕ → Vec3) × Bool))
  some
    { new := ⟨{ c.P with spherePos := spheres.1, dumbPos := dumbs.1, dumbDx := dumbs.2.1 }, spheres.2⟩
      error := dumbs.2.2
      cache := st1.cache
      lastVel := { Ua := Ua, Ub := Ub, HalfDUb := DUb, Oa := Oa }
      forces :=
        { Fa := blendRows st1.out.Fa st2.out.Fa st3.out.Fa st4.out.Fa
          Fb := blendRows st1.out.Fb st2.out.Fb st3.out.Fb st4.out.Fb
          DFb := blendRows st1.out.DFb st2.out.DFb st3.out.DFb st4.out.DFb
          Sa := blendMats st1.out.Sa st2.out.Sa st3.out.Sa st4.out.Sa } }

/-- The choice of scheme: `run_simulation.py` lines 234, 315, 585-586. -/
noncomputable def timeStep (W : World) (S : Settings) (bl tr : Vec3) (frameno : ℕ) (c : Config)
    (lastVel : Vel) (cache : NDMat) (regenerate : Bool) : Option StepResult :=
  match S.scheme with
  | .euler => stepEulerAb2 W S bl tr frameno c lastVel cache regenerate
  | .ab2 => stepEulerAb2 W S bl tr frameno c lastVel cache regenerate
  | .rk4 => stepRk4 W S bl tr frameno c lastVel cache regenerate
  | .other => none

/-- The content of a saved file: `run_simulation.py` lines 655-659, 911-915. Positions, displacements and
rotations are appended together and form one list of configurations. -/
structure Saved where
  positions : List Config
  forces : List Forces

/-- The global variables that a frame changes: `run_simulation.py` lines 146-158. `none` for a saved list means
that it has not been assigned; then appending to it raises. `temp` is the temp file on disk. -/
structure State where
  posdata : Config
  error : Bool
  cache : NDMat
  lastVel : Vel
  savedPos : Option (List Config)
  savedForces : Option (List Forces)
  temp : Option Saved

/-- Saving of positions: `run_simulation.py` lines 601-625. -/
def savePositions (S : Settings) (frameno : ℕ) (old new : Config) (saved : Option (List Config)) :
    Option (Option (List Config)) :=
  if S.save_positions_every > 0 ∧ frameno % S.save_positions_every = 0 ∧ frameno ≥ S.start_saving then do
    let saved ←
      (if frameno = S.start_saving then some (some [old])
      else if frameno ≠ S.start then saved.map fun l => some (l ++ [old])
      else some saved : Option (Option (List Config)))
    if frameno = S.num_frames - 1 ∧ 0 < S.num_frames then saved.map fun l => some (l ++ [new])
    else some saved
  else some saved

/-- Saving of forces: `run_simulation.py` lines 626-647. -/
def saveForces (S : Settings) (frameno : ℕ) (f : Forces) (saved : Option (List Forces)) :
    Option (Option (List Forces)) :=
  if S.save_forces_every > 0 ∧ frameno % S.save_forces_every = 0 ∧ frameno ≥ S.start_saving then
    if frameno = S.start_saving then some (some [f])
    else if frameno ≠ S.start then saved.map fun l => some (l ++ [f])
    else some saved
  else some saved

/-- The content written by `np.savez_compressed(...)`: `run_simulation.py` lines 655-659, 911-915. An
unassigned list raises. -/
def savez (p : Option (List Config)) (f : Option (List Forces)) : Option Saved :=
  p.bind fun p => f.bind fun f => some ⟨p, f⟩

/-- The backup file: `run_simulation.py` lines 650-659. The remainder by zero raises when it is reached. -/
def saveTemp (S : Settings) (frameno : ℕ) (p : Option (List Config)) (f : Option (List Forces))
    (temp : Option Saved) : Option (Option Saved) :=
  if S.save_positions_every > 0 then
    if S.save_to_temp_every = 0 then none
    else if frameno % S.save_to_temp_every = 0 ∧ S.save_forces_every > 0 ∧ S.save_to_temp = true
        ∧ frameno ≥ S.start_saving then (savez p f).map some
    else some temp
  else some temp

/-- `generate_frame`: `run_simulation.py` lines 139-732. `bl` and `tr` are the box given by the inputs at start-up
(lines 755-760). -/
noncomputable def generate_frame (W : World) (S : Settings) (bl tr : Vec3) (frameno : ℕ) (s : State) :
    Option State :=
  if s.error then some s
  else if S.invert_m_every = 0 then none
  else do
    let regenerate := frameno % S.invert_m_every == 0 || frameno == S.start
    let cache := if regenerate then NDMat.zeros 1 1 else s.cache
    let lastVel := if frameno = 0 ∨ frameno = S.start then Vel.blank else s.lastVel
    let r ← timeStep W S bl tr frameno s.posdata lastVel cache regenerate
    let p ← savePositions S frameno s.posdata r.new s.savedPos
    let f ← saveForces S frameno r.forces s.savedForces
    let t ← saveTemp S frameno p f s.temp
    some { posdata := r.new, error := r.error, cache := r.cache, lastVel := r.lastVel, savedPos := p,
           savedForces := f, temp := t }

/-- The first `k` frames of the loop: `run_simulation.py` lines 896-901. -/
noncomputable def runFrames (W : World) (S : Settings) (bl tr : Vec3) (s : State) : ℕ → Option State
  | 0 => some s
  | k + 1 => (runFrames W S bl tr s k).bind fun s' => generate_frame W S bl tr (S.start + k) s'

/-- The state at the start of a fresh run: `run_simulation.py` lines 71-79. `saved_element_positions` is an
empty array there, and appending a three-dimensional array to it raises as for an unassigned list. -/
noncomputable def State.fresh (c : Config) : State :=
  { posdata := c, error := false, cache := NDMat.zeros 1 1, lastVel := Vel.blank, savedPos := none,
    savedForces := none, temp := none }

/-- The end of the program: `run_simulation.py` lines 909-919. The result is the final file (`none` if
nothing is saved) and the temp file that is left. -/
def finalSave (S : Settings) (s : State) : Option (Option Saved × Option Saved) :=
  if S.save_forces_every > 0 ∨ S.save_positions_every > 0 then
    (savez s.savedPos s.savedForces).map fun d => (some d, none)
  else some (none, s.temp)

/-- The whole program after start-up, from frame `S.start` on: `run_simulation.py` lines 755-760 and
896-919. -/
noncomputable def program (W : World) (S : Settings) (s : State) : Option (Option Saved × Option Saved) := do
  let u0 ← W.input_ftsuoe s.posdata 0 0.1 Vel.blank none
  let s' ← runFrames W S u0.bl u0.tr s (S.num_frames - S.start)
  finalSave S s'

/-- `add_sphere_rotations_to_positions(x, a, [[1,0,0],[0,0,1]])`: `functions/shared.py` lines 221-244, as
called in `setups/positions.py` lines 227-228. -/
def defaultRots (pos : ℕ → Vec3) (size : ℕ → ℝ) : Rots := fun i j k =>
  pos i k + size i * (if j = 0 then (![1, 0, 0] : Vec3) k else (![0, 0, 1] : Vec3) k)

/-- Resuming from the temp file `d`: `setups/positions.py` lines 214-233 and `run_simulation.py` lines 791-801.
The start frame is the number of saved configurations; the particles are put at the last one, with the sizes of
the setup `c0` and fresh rotations. `none` for an empty list (`positions_centres[-1]` raises; the caller then
starts from the beginning). -/
def resume (S : Settings) (c0 : Config) (d : Saved) : Option (Settings × State) :=
  d.positions.getLast?.map fun c =>
    let P := { c.P with sphereSize := c0.P.sphereSize, dumbSize := c0.P.dumbSize }
    ({ S with start := d.positions.length },
     { posdata := ⟨P, defaultRots P.spherePos P.sphereSize⟩, error := false, cache := NDMat.zeros 1 1,
       lastVel := Vel.blank, savedPos := some d.positions, savedForces := some d.forces, temp := some d })

end SD
