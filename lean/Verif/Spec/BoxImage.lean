import Verif.Spec.SelfImage
import Verif.Spec.PeriodicNear

/-!
# Specification: symmetric suspensions in a periodic box
-/

set_option autoImplicit false

namespace SD.Spec

/-- One of the eight choices of signs for the axes. -/
def Signs (s : Fin 3 → ℝ) : Prop := ∀ i, s i = 1 ∨ s i = -1

/-- The rotation or reflection that changes the signs of the axes: reflections in the coordinate planes, half turns about
the axes, reversal of all axes. -/
def signQ (s : Fin 3 → ℝ) : Fin 3 → Fin 3 → ℝ := fun i j => if i = j then s i else 0

/-- The box looks the same after the change of signs: every box does when all axes are reversed (or none), a box at rest
always does. -/
def BoxKeeps (Ot : Fin 3 → ℝ) (Et : Fin 3 → Fin 3 → ℝ) (s : Fin 3 → ℝ) : Prop :=
  (∀ i, s i = s 0) ∨ (Ot = 0 ∧ Et = 0)

/-- Of each pair of particles the near field of the box uses one image. After the motion it uses the turned image. -/
def LinksKept (B : Fin 3 → Fin 3 → ℝ) (k : ℝ) (P : PosData) (Q : Fin 3 → Fin 3 → ℝ) (σ τ : ℕ → ℕ) : Prop :=
  ∀ x < beads P, ∀ y < beads P, x ≠ y → cellLink B k (centre P) (radius P) x y
    = (cellLink B k (centre P) (radius P) (beadMap P.Ns P.Nd σ τ x) (beadMap P.Ns P.Nd σ τ y)).map
      fun p => (turnVec Q p.1, p.2)

/-- On which side, along axis `j`, the corner number `x` of a brick is: the corners are counted with the last axis first. -/
def cornerSide (j : Fin 3) (x : ℕ) : ℝ := if x / 2 ^ (2 - j.val) % 2 = 1 then 1 else -1

/-- Eight spheres of one size at the corners of a brick with centre `o` and sides `2 * a j`, and nothing else. -/
structure Brick (P : PosData) (o a : Fin 3 → ℝ) : Prop where
  Ns : P.Ns = 8
  Nd : P.Nd = 0
  size : ∀ x < 8, P.sphereSize x = P.sphereSize 0
  corner : ∀ x < 8, P.spherePos x = fun j => o j + cornerSide j x * a j

/-- A brick in a box with sides `L`, and of the pairs of its corners only neighbours along an axis may have two nearest
images within the range `2 * k` of the near field. -/
structure BrickFits (L a : Fin 3 → ℝ) (k : ℝ) : Prop where
  pos : ∀ j, 0 < a j
  fits : ∀ j, 4 * a j ≤ L j
  ties : ∀ i j, i ≠ j → (4 * a i < L i ∧ 4 * a j < L j) ∨ (2 * k) ^ 2 < (2 * a i) ^ 2 + (2 * a j) ^ 2

end SD.Spec
