import Verif.Spec.Solve

/-!
# Specification: how far the answer moves with the matrix
-/

set_option autoImplicit false

namespace SD.Spec

open Finset

/-- The grand vector of motions in an output. -/
noncomputable def motion (Ns Nd : ℕ) (out : Outputs) : ℕ → ℝ := pack Ns Nd out.Ua out.Oa out.Ea out.Ub out.HalfDUb

/-- The grand vector of loads in an output. -/
noncomputable def load (Ns Nd : ℕ) (out : Outputs) : ℕ → ℝ := pack Ns Nd out.Fa out.Ta out.Sa out.Fb out.DFb

/-- The length of a grand vector. -/
noncomputable def size (n : ℕ) (v : ℕ → ℝ) : ℝ := Real.sqrt (∑ i ∈ range n, v i ^ 2)

/-- How far apart two matrices are: the root of the sum of the squares of the differences of their entries. -/
noncomputable def apart (n : ℕ) (A B : ℕ → ℕ → ℝ) : ℝ :=
  Real.sqrt (∑ i ∈ range n, ∑ j ∈ range n, (A i j - B i j) ^ 2)

/-- Every motion of unit length takes at least the power `c`. -/
def Stiff (c : ℝ) (M : ℕ → ℕ → ℝ) (n : ℕ) : Prop :=
  ∀ w : ℕ → ℝ, c * ∑ i ∈ range n, w i ^ 2 ≤ ∑ i ∈ range n, ∑ j ∈ range n, w i * M i j * w j

end SD.Spec
