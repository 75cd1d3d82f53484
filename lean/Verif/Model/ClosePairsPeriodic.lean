import Verif.Model.ClosePairs
import Verif.Model.Timestep

/-!
# `close_particles` in a periodic box
-/

set_option autoImplicit false

namespace SD

/-- `unsheared_positions`: `functions/shared.py` lines 456-458. `Bi` is the inverse of the sheared basis. -/
noncomputable def unshearedPositions (pos : ℕ → Vec3) (Bi C : Mat3) : ℕ → Vec3 := fun i =>
  vecMat3 (vecMat3 (pos i) Bi) C

/-- Row `j` of `sheared_centred_box` for particle `i`: `functions/shared.py` lines 463-467. `Ci` is the inverse of
the canonical basis. -/
noncomputable def shearedCentredBox (x : ℕ → Vec3) (Ci B : Mat3) (i j : ℕ) : Vec3 :=
  vecMat3 (fun m => npMod (vecMat3 (fun k => x j k - x i k) Ci m + 0.5) 1 - 0.5) B

open Classical in
/-- The particles found near particle `i`, `particles_in_radius_ids`: `functions/shared.py` lines 470-476. -/
noncomputable def particlesInRadius (n : ℕ) (d : ℕ → Vec3) (cutoff : ℝ) (i : ℕ) : List ℕ :=
  let cube := (List.range n).filter fun j => decide (max (max |d j 0| |d j 1|) |d j 2| ≤ cutoff)
  let radius := cube.filter fun j => decide (norm3 (d j) ≤ cutoff)
  radius.filter fun j => decide (j ≥ i)

open Classical in
/-- `close_particles` in a periodic box: `functions/shared.py` lines 447-498. `none` is the `LinAlgError` for a
singular basis. The three arrays that the code fills side by side are one list. -/
noncomputable def close_particles_periodic (n : ℕ) (pos : ℕ → Vec3) (size : ℕ → ℝ) (cutoff_factor : ℝ)
    (bl tr Ot : Vec3) (Et : Mat3) : Option (List ClosePair) := do
  let cutoff := 2 * cutoff_factor
  let L : Vec3 := fun i => tr i - bl i
  let C := basis_canonical L
  let B := shear_basis_vectors C L Ot Et
  let Bi ← inv3 B
  let x := unshearedPositions pos Bi C
  let Ci ← inv3 C
  let pairs := (List.range n).flatMap fun i =>
    (particlesInRadius n (shearedCentredBox x Ci B i) cutoff i).map fun j => (i, j, shearedCentredBox x Ci B i j)
  let scaled := pairs.filter fun p => decide (2 * norm3 p.2.2 / (size p.1 + size p.2.1) ≤ cutoff)
  some <| scaled.map fun p =>
    { i := p.1
      j := p.2.1
      disp := fun k => 2 * p.2.2 k / (size p.1 + size p.2.1)
      dist := 2 * norm3 p.2.2 / (size p.1 + size p.2.1)
      ratio := size p.2.1 / size p.1 }

end SD
