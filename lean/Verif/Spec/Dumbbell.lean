import Mathlib.Data.Real.Basic
import Mathlib.Algebra.BigOperators.Group.Finset.Basic

/-!
# Specification of the dumbbell variables

A grand vector in bead coordinates ends with the forces (velocities) of all first beads followed by
those of all second beads: component `11 Ns + k` belongs to the first bead and `11 Ns + 3 Nd + k` to
the second one. Dumbbell coordinates replace the forces by the sum and the difference and the
velocities by the mean and half the difference.
-/

set_option autoImplicit false

namespace SD.Spec

/-- Forces: `F1, F2` become `F1 + F2, F2 - F1`. -/
def toDumbForce (Ns Nd : ℕ) (f : ℕ → ℝ) (i : ℕ) : ℝ :=
  if i < 11 * Ns then f i
  else if i < 11 * Ns + 3 * Nd then f i + f (i + 3 * Nd)
  else f i - f (i - 3 * Nd)

/-- Velocities: `U1, U2` become `(U1 + U2)/2, (U2 - U1)/2`. -/
noncomputable def toDumbVel (Ns Nd : ℕ) (u : ℕ → ℝ) (i : ℕ) : ℝ :=
  if i < 11 * Ns then u i
  else if i < 11 * Ns + 3 * Nd then (u i + u (i + 3 * Nd)) / 2
  else (u i - u (i - 3 * Nd)) / 2

/-- The product of a matrix with `n` columns and a vector. -/
def mulVec (n : ℕ) (M : ℕ → ℕ → ℝ) (v : ℕ → ℝ) (i : ℕ) : ℝ := ∑ k ∈ Finset.range n, M i k * v k

end SD.Spec
