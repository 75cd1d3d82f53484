import Mathlib.Data.Real.Basic
import Mathlib.Analysis.Real.Sqrt
import Mathlib.LinearAlgebra.Matrix.Notation

/-!
# Specification vocabulary: grand vectors by index arithmetic

Written without reference to the model: where each component of each particle sits in a grand
vector, and the five-component form of a rate of strain or stresslet.
-/

set_option autoImplicit false

namespace SD.Spec

/-- The five independent components of a symmetric traceless 3x3 matrix, scaled so that the dot
product of two such 5-vectors is the double contraction of the matrices (see `C02`). -/
noncomputable def five (e : Fin 3 → Fin 3 → ℝ) : Fin 5 → ℝ :=
  ![(Real.sqrt 3 + 1) / 2 * e 0 0 + (Real.sqrt 3 - 1) / 2 * e 1 1,
    Real.sqrt 2 * e 0 1,
    (Real.sqrt 3 - 1) / 2 * e 0 0 + (Real.sqrt 3 + 1) / 2 * e 1 1,
    Real.sqrt 2 * e 0 2,
    Real.sqrt 2 * e 1 2]

/-- Symmetric with zero trace. -/
def SymTraceless (e : Fin 3 → Fin 3 → ℝ) : Prop :=
  (∀ i j, e i j = e j i) ∧ e 0 0 + e 1 1 + e 2 2 = 0

/-- Component `i` of the grand vector of `Ns` spheres and `Nd` dumbbells with sphere vectors `u`,
`o`, sphere tensors `e` and dumbbell vectors `ub`, `hd`. -/
noncomputable def pack (Ns Nd : ℕ) (u o : List (Fin 3 → ℝ)) (e : List (Fin 3 → Fin 3 → ℝ))
    (ub hd : List (Fin 3 → ℝ)) (i : ℕ) : ℝ :=
  if i < 3 * Ns then u.getD (i / 3) 0 ⟨i % 3, Nat.mod_lt _ (by decide)⟩
  else if i < 6 * Ns then o.getD ((i - 3 * Ns) / 3) 0 ⟨(i - 3 * Ns) % 3, Nat.mod_lt _ (by decide)⟩
  else if i < 11 * Ns then
    five (e.getD ((i - 6 * Ns) / 5) 0) ⟨(i - 6 * Ns) % 5, Nat.mod_lt _ (by decide)⟩
  else if i < 11 * Ns + 3 * Nd then
    ub.getD ((i - 11 * Ns) / 3) 0 ⟨(i - 11 * Ns) % 3, Nat.mod_lt _ (by decide)⟩
  else hd.getD ((i - (11 * Ns + 3 * Nd)) / 3) 0
    ⟨(i - (11 * Ns + 3 * Nd)) % 3, Nat.mod_lt _ (by decide)⟩

end SD.Spec
