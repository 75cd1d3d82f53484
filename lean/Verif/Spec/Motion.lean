import Verif.Spec.NearField
import Mathlib.Analysis.SpecialFunctions.Trigonometric.Basic

/-!
# Specification of rigid rotation, background flow and periodic lattices

Written without reference to the model.
-/

set_option autoImplicit false

namespace SD.Spec

/-- Rodrigues' formula: the vector `v` turned right-handedly through the angle `α` about the unit vector
`u`. -/
noncomputable def turn (u : Fin 3 → ℝ) (α : ℝ) (v : Fin 3 → ℝ) : Fin 3 → ℝ := fun k =>
  Real.cos α * v k + Real.sin α * cross u v k + (1 - Real.cos α) * dotp u v * u k

/-- The vector `v` after time `t` of rotation with the constant angular velocity `w`. -/
noncomputable def spin (w : Fin 3 → ℝ) (t : ℝ) (v : Fin 3 → ℝ) : Fin 3 → ℝ :=
  turn (fun k => w k / len w) (len w * t) v

/-- The affine background flow with velocity `U` at `c`, angular velocity `O` and rate of strain `E`. -/
def affineFlow (U O c : Fin 3 → ℝ) (E : Fin 3 → Fin 3 → ℝ) (x : Fin 3 → ℝ) : Fin 3 → ℝ := fun k =>
  U k + cross O (fun m => x m - c m) k + app E (fun m => x m - c m) k

/-- The point with coordinates `c` in the basis whose vectors are the rows of `B`. -/
def combine (B : Fin 3 → Fin 3 → ℝ) (c : Fin 3 → ℝ) : Fin 3 → ℝ := fun k =>
  c 0 * B 0 k + c 1 * B 1 k + c 2 * B 2 k

/-- `v` is an integer combination of the rows of `B`. -/
def InLattice (B : Fin 3 → Fin 3 → ℝ) (v : Fin 3 → ℝ) : Prop :=
  ∃ n : Fin 3 → ℤ, v = combine B fun i => (n i : ℝ)

/-- `y` is in the cell centred on the origin: its coordinates are at least `-1/2` and below `1/2`. -/
def InCell (B : Fin 3 → Fin 3 → ℝ) (y : Fin 3 → ℝ) : Prop :=
  ∃ c : Fin 3 → ℝ, (∀ i, -(1 / 2) ≤ c i ∧ c i < 1 / 2) ∧ y = combine B c

/-- The three box vectors span space. -/
def Spans (B : Fin 3 → Fin 3 → ℝ) : Prop :=
  B 0 0 * (B 1 1 * B 2 2 - B 1 2 * B 2 1) - B 0 1 * (B 1 0 * B 2 2 - B 1 2 * B 2 0)
    + B 0 2 * (B 1 0 * B 2 1 - B 1 1 * B 2 0) ≠ 0

/-- The linear field `x ↦ O × x + E x` is simple shear of size `g`: along axis `a`, growing along axis `b`. -/
def IsShear (O : Fin 3 → ℝ) (E : Fin 3 → Fin 3 → ℝ) (a b : Fin 3) (g : ℝ) : Prop :=
  ∀ x k, cross O x k + app E x k = if k = a then g * x b else 0

/-- The box with sides `L` along the axes, deformed by simple shear of size `g` along axis `a`, growing
along axis `b`: its three edge vectors. -/
noncomputable def shearedBox (L : Fin 3 → ℝ) (a b : Fin 3) (g : ℝ) : Fin 3 → Fin 3 → ℝ := fun k i =>
  (if i = k then L k else 0) + if k = b ∧ i = a then g * L b else 0

/-- Edge `k` of the box with sides `L` along the axes. -/
def edge (L : Fin 3 → ℝ) (k : Fin 3) : Fin 3 → ℝ := fun i => if i = k then L k else 0

/-- The rows of `B` are the edges of the box with sides `L`, each displaced by the accumulated flow
`O × x + E x`, with the displacement reduced by whole box sides into the box. -/
def FoldedBox (L O : Fin 3 → ℝ) (E B : Fin 3 → Fin 3 → ℝ) : Prop := ∀ k i,
  (0 ≤ B k i - edge L k i ∧ B k i - edge L k i < L i) ∧
  ∃ n : ℤ, B k i - edge L k i = cross O (edge L k) i + app E (edge L k) i - n * L i

/-! Shear inputs. -/

/-- Every strain in a list is the given one, and there is at least one and at least one per sphere. -/
def AllStrains (l : List (Fin 3 → Fin 3 → ℝ)) (n : ℕ) (E : Fin 3 → Fin 3 → ℝ) : Prop :=
  l.length = max 1 n ∧ ∀ F ∈ l, F = E

/-- The axes and sign of the shear that `oscillatory_shear` is asked for: the axis of the motion, the axis
along which it grows, and the sign. -/
def shearPlane (unused_axis : ℕ) (transpose opposite : Bool) : Fin 3 × Fin 3 × ℝ :=
  if unused_axis = 1 then (if transpose then (2, 0, 1) else (0, 2, 1))
  else ((if transpose then 1 else 0), (if transpose then 0 else 1), if opposite then -1 else 1)

end SD.Spec
