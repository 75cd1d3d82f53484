import Mathlib.Analysis.Convex.Hull
import Mathlib.Topology.Algebra.Module.Basic
import Mathlib.Topology.Instances.Real.Lemmas

/-!
# Specification: convex polygons
-/

set_option autoImplicit false

namespace SD.Spec

/-- Twice the signed area of a triangle: positive if it is passed anticlockwise. -/
def area2 (p q r : ℝ × ℝ) : ℝ := (q.1 - p.1) * (r.2 - p.2) - (q.2 - p.2) * (r.1 - p.1)

/-- The corners of a convex polygon in order, clockwise or anticlockwise: for each side, all the other corners
are strictly on the same side of it, and which side this is does not change. -/
def ConvexPolygon (poly : List (ℝ × ℝ)) : Prop :=
  3 ≤ poly.length ∧ ∃ s : ℝ, (s = 1 ∨ s = -1) ∧
    ∀ (i k : ℕ) (p q r : ℝ × ℝ), poly[i]? = some p → poly[(i + 1) % poly.length]? = some q → poly[k]? = some r →
      k ≠ i → k ≠ (i + 1) % poly.length → 0 < s * area2 p q r

/-- The region a polygon encloses, with its boundary. -/
def region (poly : List (ℝ × ℝ)) : Set (ℝ × ℝ) := convexHull ℝ {p | p ∈ poly}

end SD.Spec
