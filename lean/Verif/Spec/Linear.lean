import Mathlib.Data.Real.Basic
import Mathlib.Algebra.BigOperators.Group.Finset.Basic

/-!
# Specification vocabulary: linear relations on grand vectors

Nothing here refers to the model of the code.
-/

namespace SD.Spec

open Finset

/-- `v` and `f` are related by the `n × n` matrix with entries `M`: `M v = f`. -/
def LinRel (M : ℕ → ℕ → ℝ) (n : ℕ) (v f : ℕ → ℝ) : Prop :=
  ∀ i < n, ∑ j ∈ range n, M i j * v j = f i

/-- `n × n` symmetry. -/
def Symm (M : ℕ → ℕ → ℝ) (n : ℕ) : Prop := ∀ i < n, ∀ j < n, M i j = M j i

/-- Positive definiteness of the quadratic form (no symmetry required). -/
def PosDef (M : ℕ → ℕ → ℝ) (n : ℕ) : Prop :=
  ∀ w : ℕ → ℝ, (∃ i < n, w i ≠ 0) → 0 < ∑ i ∈ range n, ∑ j ∈ range n, w i * M i j * w j

open Classical in
/-- `v` with the entries selected by `P` replaced by those of `f`. -/
noncomputable def swapOn (P : ℕ → Prop) (v f : ℕ → ℝ) : ℕ → ℝ := fun i => if P i then f i else v i

end SD.Spec
