import Verif.Spec.Layers

/-!
# Specification of the flow due to a periodic array of point forces

Written from the Stokes equations alone, with no sum over images or waves. Velocities are multiplied by `8 pi mu` and
pressures by `8 pi`, so that a unit force in an unbounded fluid gives the Oseen tensor.
-/

set_option autoImplicit false

namespace SD.Spec

/-- `r` is not on a point of the lattice. -/
def OffLattice (B : Fin 3 → Fin 3 → ℝ) (r : Fin 3 → ℝ) : Prop := ∀ v, InLattice B v → (fun m => r m + v m) ≠ 0

/-- `f` can be differentiated in coordinate `l` at `r`. -/
def CanPd (l : Fin 3) (f : (Fin 3 → ℝ) → ℝ) (r : Fin 3 → ℝ) : Prop :=
  DifferentiableAt ℝ (fun t => f (Function.update r l t)) (r l)

/-- `G · j` and `p j` are the velocity and the pressure due to unit point forces in direction `j` on all points of the
lattice, balanced by a uniform force in a box of volume `V`. -/
structure IsArrayFlow (B : Fin 3 → Fin 3 → ℝ) (V : ℝ) (G : Green) (p : Fin 3 → (Fin 3 → ℝ) → ℝ) : Prop where
  periodic : ∀ v, InLattice B v → ∀ i j r, G i j (fun m => r m + v m) = G i j r
  periodic_pressure : ∀ v, InLattice B v → ∀ j r, p j (fun m => r m + v m) = p j r
  smooth : ∀ r, OffLattice B r → ∀ i j l, CanPd l (G i j) r ∧ ∀ m, CanPd m (pd l (G i j)) r
  smooth_pressure : ∀ r, OffLattice B r → ∀ j l, CanPd l (p j) r
  /-- No fluid is made or lost. -/
  incompressible : ∀ r, OffLattice B r → ∀ j, ∑ i, pd i (G i j) r = 0
  /-- Viscous force, pressure and uniform force balance. -/
  balance : ∀ r, OffLattice B r → ∀ i j, lap (G i j) r - pd i (p j) r = dlt i j * (8 * Real.pi / V)
  /-- Near a point of the lattice the velocity differs from that of a point force in an unbounded fluid by something
  with a limit. -/
  point_force : ∀ i j, ∃ w, Filter.Tendsto (fun r => G i j r - oseen i j r) (nhdsWithin 0 {0}ᶜ) (nhds w)
  /-- So does the pressure. -/
  point_force_pressure : ∀ j, ∃ w, Filter.Tendsto (fun r => p j r - 2 * r j / len r ^ 3) (nhdsWithin 0 {0}ᶜ) (nhds w)

end SD.Spec
