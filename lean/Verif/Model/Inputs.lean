import Verif.Model.ClosePairs
import Verif.Model.Layout
import Mathlib.Analysis.SpecialFunctions.Trigonometric.Basic
import Mathlib.Analysis.SpecialFunctions.Exp

/-!
# `setups/functions_inputs.py`: shear flows and repulsion forces
-/

set_option autoImplicit false

namespace SD

/-- The tuple returned by the shear functions: `setups/functions_inputs.py` lines 145-146, 178-179. -/
structure ShearFlow where
  Ea_in : List Mat3
  U_infinity : Vec3
  O_infinity : Vec3
  centre_of_background_flow : Vec3
  Ot_infinity : Vec3
  Et_infinity : Mat3

/-- `constant_shear`: `setups/functions_inputs.py` lines 149-179. `frameno` is a number because the
Runge-Kutta stages ask for half frames. -/
noncomputable def constant_shear (gammadot frameno timestep : ℝ) (centre : Vec3) (num_spheres : ℕ) :
    ShearFlow :=
  let t := frameno * timestep
  { Ea_in := List.replicate (max 1 num_spheres)
      ![![0, 0, 0.5 * gammadot], ![0, 0, 0], ![0.5 * gammadot, 0, 0]]
    U_infinity := ![0, 0, 0]
    O_infinity := ![0, 0.5 * gammadot, 0]
    centre_of_background_flow := centre
    Ot_infinity := ![0, 0.5 * gammadot * t, 0]
    Et_infinity := ![![0, 0, 0.5 * gammadot * t], ![0, 0, 0], ![0.5 * gammadot * t, 0, 0]] }

/-- `oscillatory_shear`: `setups/functions_inputs.py` lines 84-146. `none` is the division by a zero
period (line 112) or the unassigned result for an `unused_axis` other than 1 and 2 (line 145). -/
noncomputable def oscillatory_shear (amplitude period frameno timestep phase : ℝ) (centre : Vec3)
    (num_spheres unused_axis : ℕ) (transpose_shear opposite_direction : Bool) : Option ShearFlow :=
  if period = 0 then none else
  let angular_frequency := 2 * Real.pi / period
  let t := frameno * timestep
  let gamma := amplitude * Real.sin (t * angular_frequency + phase)
  let gammadot := (amplitude * angular_frequency) * Real.cos (t * angular_frequency + phase)
  let transpose_minus : ℝ := if transpose_shear then -1 else 1
  let opposite_minus : ℝ := if opposite_direction then -1 else 1
  if unused_axis = 1 then
    some
      { Ea_in := List.replicate (max 1 num_spheres)
          ![![0, 0, 0.5 * gammadot], ![0, 0, 0], ![0.5 * gammadot, 0, 0]]
        U_infinity := ![0, 0, 0]
        O_infinity := ![0, transpose_minus * 0.5 * gammadot, 0]
        centre_of_background_flow := centre
        Ot_infinity := ![0, transpose_minus * 0.5 * gamma, 0]
        Et_infinity := ![![0, 0, 0.5 * gamma], ![0, 0, 0], ![0.5 * gamma, 0, 0]] }
  else if unused_axis = 2 then
    some
      { Ea_in := List.replicate (max 1 num_spheres)
          ![![0, opposite_minus * 0.5 * gammadot, 0], ![opposite_minus * 0.5 * gammadot, 0, 0],
            ![0, 0, 0]]
        U_infinity := ![0, 0, 0]
        O_infinity := ![0, 0, opposite_minus * transpose_minus * (-0.5) * gammadot]
        centre_of_background_flow := centre
        Ot_infinity := ![0, 0, opposite_minus * transpose_minus * (-0.5) * gamma]
        Et_infinity := ![![0, opposite_minus * 0.5 * gamma, 0], ![opposite_minus * 0.5 * gamma, 0, 0],
          ![0, 0, 0]] }
  else none

open Classical in
/-- `overlapping_or_close_pairs`: `setups/functions_inputs.py` lines 34-48, for `n` beads. `np.where`
lists the index pairs row by row. -/
noncomputable def repulsionPairs (n : ℕ) (pos : ℕ → Vec3) (size : ℕ → ℝ) : List (ℕ × ℕ) :=
  ((List.range n).flatMap fun a => (List.range n).map fun b => (a, b)).filter fun p =>
    decide (distanceOverAverage pos size p.1 p.2 > 0
      ∧ (distanceOverAverage pos size p.1 p.2 < 2.2 ∧ p.1 ≤ p.2))

/-- `repulsion_force_length` for one pair: `setups/functions_inputs.py` lines 51-52 and 55-68. -/
noncomputable def repulsionLength (strength tau : ℝ) (pos : ℕ → Vec3) (size : ℕ → ℝ) (p : ℕ × ℕ) : ℝ :=
  let h := distanceOverAverage pos size p.1 p.2 - 2
  let a1 := size p.1
  let a2 := size p.2
  if h ≥ 0 then 0 + strength * (2 * a1 * a2 / (a1 + a2)) * Real.exp (-tau * h)
  else 0 + strength * (2 * a1 * a2 / (a1 + a2))

/-- The loop body: `setups/functions_inputs.py` lines 51-73. -/
noncomputable def repulsionStep (strength tau : ℝ) (pos : ℕ → Vec3) (size : ℕ → ℝ)
    (bead_force : ℕ → Vec3) (p : ℕ × ℕ) : ℕ → Vec3 :=
  let r : Vec3 := fun k => pos p.2 k - pos p.1 k
  let unit_vector : Vec3 := fun k => r k / norm3 r
  let f := repulsionLength strength tau pos size p
  let bead_force := Function.update bead_force p.1 fun k => bead_force p.1 k + f * unit_vector k
  Function.update bead_force p.2 fun k => bead_force p.2 k - f * unit_vector k

/-- `repulsion_forces`: `setups/functions_inputs.py` lines 11-81, on forces that are numbers (a
placeholder in them raises). `lid` is `num_sphere_in_each_lid`. -/
noncomputable def repulsion_forces (strength tau : ℝ) (P : PosData) (lid : ℕ)
    (Fa_in Fb_in DFb_in : ℕ → Vec3) : (ℕ → Vec3) × (ℕ → Vec3) × (ℕ → Vec3) :=
  let n := P.Ns + 2 * P.Nd
  let bead_force := (repulsionPairs n P.beadPos P.beadSize).foldl
    (repulsionStep strength tau P.beadPos P.beadSize) fun _ _ => 0
  (fun i k => if 2 * lid ≤ i ∧ i < P.Ns then Fa_in i k - bead_force i k else Fa_in i k,
   fun i k => Fb_in i k - (bead_force (P.Ns + i) k + bead_force (P.Ns + P.Nd + i) k),
   fun i k => DFb_in i k - (bead_force (P.Ns + P.Nd + i) k - bead_force (P.Ns + i) k))

end SD
