import Verif.Model.Placement

/-!
# `setups/functions_positions.py`: points inside a polygon, beads inside a quadrilateral
-/

set_option autoImplicit false

namespace SD

/-- The variables of the loop of `point_inside_polygon`: `functions_positions.py` lines 387-397. `xinters` is
`none` as long as it has not been assigned. -/
structure PolygonState where
  inside : Bool
  xinters : Option ℝ
  p1 : ℝ × ℝ

open Classical in
/-- One pass of the loop: `functions_positions.py` lines 391-397. `none` is an exception: no such corner, or
`xinters` read before it is assigned. -/
noncomputable def polygonPass (x y : ℝ) (poly : List (ℝ × ℝ)) (s : PolygonState) (i : ℕ) : Option PolygonState := do
  let p2 ← poly[i % poly.length]?
  if y > min s.p1.2 p2.2 ∧ y ≤ max s.p1.2 p2.2 ∧ x ≤ max s.p1.1 p2.1 then
    let xinters := if s.p1.2 ≠ p2.2 then some ((y - s.p1.2) * (p2.1 - s.p1.1) / (p2.2 - s.p1.2) + s.p1.1)
      else s.xinters
    let hit ← (if s.p1.1 = p2.1 then some true else xinters.map fun v => decide (x ≤ v) : Option Bool)
    some ⟨if hit then !s.inside else s.inside, xinters, p2⟩
  else some { s with p1 := p2 }

/-- `point_inside_polygon`: `functions_positions.py` lines 383-399. -/
noncomputable def point_inside_polygon (x y : ℝ) (poly : List (ℝ × ℝ)) : Option Bool := do
  let p1 ← poly[0]?
  let s ← (List.range (poly.length + 1)).foldlM (polygonPass x y poly) ⟨false, none, p1⟩
  some s.inside

/-- The arguments of `randomise_beads_inside_quadrilateral`: `functions_positions.py` lines 329-331. The rows of
`quadrilateral` are pairs of numbers. -/
structure QuadArgs where
  quad : List (ℝ × ℝ)
  sizes : List ℝ
  spherePos : List Vec3
  sphereSize : ℝ

/-- `np.min` of a column: `functions_positions.py` line 340. -/
noncomputable def columnMin : List ℝ → Place ℝ
  | [] => throw PlaceError.emptyMin
  | a :: r => pure (r.foldl min a)

/-- `np.max` of a column: `functions_positions.py` line 342. -/
noncomputable def columnMax : List ℝ → Place ℝ
  | [] => throw PlaceError.emptyMin
  | a :: r => pure (r.foldl max a)

/-- Whether a proposed bead is rejected: `functions_positions.py` lines 351-368. `dumbbell_sizes[j//2]` always
exists there. -/
noncomputable def QuadArgs.rejected (Q : QuadArgs) (beads : List Vec3) (a : ℝ) (p : Vec3) : Place Bool :=
  match point_inside_polygon (p 0) (p 2) Q.quad with
  | none => throw PlaceError.index
  | some false => pure true
  | some true =>
    if Q.spherePos.any fun q => overlaps p q a Q.sphereSize then pure true
    else pure (beads.zipIdx.any fun q => overlaps p q.1 a (Q.sizes.getD (q.2 / 2) 0))

/-- The `while fail` loop: `functions_positions.py` lines 346-368. -/
noncomputable def proposeInside (w : ℕ → ℝ) (Q : QuadArgs) (bl tr : Vec3) (beads : List Vec3) (a : ℝ) :
    ℕ → ℕ → Place (Vec3 × ℕ)
  | 0, _ => throw PlaceError.unfinished
  | fuel + 1, k => do
    let p := random_point_in_box w k bl tr
    let fail ← Q.rejected beads a p
    if fail then proposeInside w Q bl tr beads a fuel (k + 3) else pure (p, k + 3)

/-- The `for i` loop: `functions_positions.py` lines 345-372; the first number is the beads still to do, and bead
number `i` has the radius `dumbbell_sizes[i//2]`, which always exists. -/
noncomputable def placeInside (fuel : ℕ) (w : ℕ → ℝ) (Q : QuadArgs) (bl tr : Vec3) :
    ℕ → List Vec3 → ℕ → Place (List Vec3 × ℕ)
  | 0, beads, k => pure (beads, k)
  | m + 1, beads, k => do
    let (p, k') ← proposeInside w Q bl tr beads (Q.sizes.getD (beads.length / 2) 0) fuel k
    placeInside fuel w Q bl tr m (beads ++ [p]) k'

/-- `bead_positions` after the loop: `functions_positions.py` lines 337-372. -/
noncomputable def beadsInside (fuel : ℕ) (w : ℕ → ℝ) (k : ℕ) (Q : QuadArgs) : Place (List Vec3 × ℕ) := do
  let x0 ← columnMin (Q.quad.map Prod.fst)
  let z0 ← columnMin (Q.quad.map Prod.snd)
  let x1 ← columnMax (Q.quad.map Prod.fst)
  let z1 ← columnMax (Q.quad.map Prod.snd)
  placeInside fuel w Q ![x0, 0, z0] ![x1, 0, z1] (2 * Q.sizes.length) [] k

/-- `randomise_beads_inside_quadrilateral`: `functions_positions.py` lines 329-380. The shape asked for in line 374
contains `bead_positions.shape[0]/2`, which is a float in Python 3, so that `reshape` raises; the lines after it are
not reached and not modelled. -/
noncomputable def randomise_beads_inside_quadrilateral (fuel : ℕ) (w : ℕ → ℝ) (k : ℕ) (Q : QuadArgs) :
    Place (List (Vec3 × Vec3) × ℕ) := do
  let _ ← beadsInside fuel w k Q
  throw PlaceError.floatShape

end SD
