import Verif.Model.Green
import Verif.Model.Timestep
import Mathlib.Analysis.SpecialFunctions.Trigonometric.Basic

/-!
# Random placement of particles: `setups/functions_positions.py`

`np.random.rand` reads the next numbers of a stream `w : ℕ → ℝ`; `k` counts how many have been read. A
`while True` loop is run for at most `fuel` rounds, and `unfinished` says it has not stopped by then.
Printing is not modelled, except where the printed statistic raises an exception.
-/

set_option autoImplicit false

namespace SD

/-- Ways in which the placement functions do not return: `IndexError` (`functions_positions.py` lines 48,
109), `ValueError` of `np.min` on an empty array (lines 69, 157, 297), the interactive prompt (lines
275-278), `TypeError` of `reshape` with a float (line 374), and a `while` loop that is still running. -/
inductive PlaceError
  | index | emptyMin | prompt | floatShape | unfinished
  deriving DecidableEq

/-- Result of a placement function. -/
abbrev Place (α : Type) := Except PlaceError α

/-- `random_point_in_box`: `functions_positions.py` lines 12-16. -/
def random_point_in_box (w : ℕ → ℝ) (k : ℕ) (bl tr : Vec3) : Vec3 := fun c =>
  bl c + w (k + (c : ℕ)) * (tr c - bl c)

open Classical in
/-- `overlaps`: `functions_positions.py` lines 19-21. -/
noncomputable def overlaps (p q : Vec3) (a b : ℝ) : Bool := decide (norm3 (p - q) < a + b)

open Classical in
/-- `overlaps_periodic`: `functions_positions.py` lines 24-26. -/
noncomputable def overlaps_periodic (p q : Vec3) (a b : ℝ) (dxy : Vec3) : Bool :=
  decide (norm3 (p - q - dxy) < a + b)

/-- The counting loops `for j in range(n): if overlaps(...): too_close = too_close + 1`:
`functions_positions.py` lines 47-50, 108-111, 113-116, 129-132, 134-137. -/
noncomputable def countClose (p : Vec3) (a : ℝ) (pos : ℕ → Option Vec3) (size : ℕ → Option ℝ) (n : ℕ)
    (too_close : ℕ) : Place ℕ :=
  (List.range n).foldlM (fun c j =>
    match pos j, size j with
    | some q, some b => pure (if overlaps p q a b then c + 1 else c)
    | _, _ => throw PlaceError.index) too_close

/-- The `while True` loop of `randomise_spheres`: `functions_positions.py` lines 43-59. `a` is
`random_sphere_sizes[i]`, `n` is `num_current_spheres+i`. -/
noncomputable def proposeSphere (w : ℕ → ℝ) (bl tr : Vec3) (out : List Vec3) (sizes : List ℝ) (a : ℝ)
    (n : ℕ) : ℕ → ℕ → Place (Vec3 × ℕ)
  | 0, _ => throw PlaceError.unfinished
  | fuel + 1, k => do
    let p := random_point_in_box w k bl tr
    let too_close ← countClose p a (fun j => out[j]?) (fun j => sizes[j]?) n 0
    if too_close = 0 then pure (p, k + 3) else proposeSphere w bl tr out sizes a n fuel (k + 3)

/-- The `for i` loop of `randomise_spheres`: `functions_positions.py` lines 42-61; the first argument is the
part of `random_sphere_sizes` still to do. -/
noncomputable def placeSpheres (fuel : ℕ) (w : ℕ → ℝ) (bl tr : Vec3) (sizes : List ℝ) (current : ℕ) :
    List ℝ → ℕ → List Vec3 → ℕ → Place (List Vec3 × ℕ)
  | [], _, out, k => pure (out, k)
  | a :: rest, i, out, k => do
    let (p, k') ← proposeSphere w bl tr out sizes a (current + i) fuel k
    placeSpheres fuel w bl tr sizes current rest (i + 1) (out ++ [p]) k'

open Classical in
/-- The statistic `np.min(distance_matrix[np.nonzero(distance_matrix)])`: `functions_positions.py` lines
67-69, 155-157, 296-297. It fails when no two points differ. -/
noncomputable def minElementDistance (pts : List Vec3) : Place Unit :=
  if ∃ p ∈ pts, ∃ q ∈ pts, norm3 (p - q) ≠ 0 then pure () else throw PlaceError.emptyMin

/-- `randomise_spheres`: `functions_positions.py` lines 29-84. The volume fraction (lines 74-82) is only
printed and not modelled. -/
noncomputable def randomise_spheres (fuel : ℕ) (w : ℕ → ℝ) (k : ℕ) (bl tr : Vec3) (random_sizes : List ℝ)
    (current_sizes : List ℝ) (current_positions : List Vec3) : Place (List Vec3 × ℕ) := do
  let all_sizes := current_sizes ++ random_sizes
  let (out, k') ← placeSpheres fuel w bl tr all_sizes current_sizes.length random_sizes 0
    current_positions k
  let placed := (out.take all_sizes.length).drop current_positions.length
  minElementDistance placed
  pure (placed, k')

/-- The angles: `functions_positions.py` lines 120-123 (and 234-237). `none` stands for `'r'`. -/
noncomputable def drawAngles (w : ℕ → ℝ) (theta phi : Option ℝ) (k : ℕ) : ℝ × ℝ × ℕ :=
  let (t, k) := match theta with
    | none => (w k * Real.pi * 2, k + 1)
    | some t => (t, k)
  match phi with
    | none => (t, w k * Real.pi, k + 1)
    | some p => (t, p, k)

/-- `proposed_bead2_position`: `functions_positions.py` lines 124-127 (and 238-241). -/
noncomputable def bead2At (b1 : Vec3) (dx theta phi : ℝ) : Vec3 := fun c =>
  b1 c + dx * (![Real.sin theta * Real.cos phi, Real.sin theta * Real.sin phi, Real.cos theta] : Vec3) c

/-- What a placement of dumbbells is checked against and how: the arguments of `randomise_dumbbells` and
`randomise_dumbbells_periodic` (`functions_positions.py` lines 87-90, 192-195). -/
structure DumbArgs where
  bl : Vec3
  tr : Vec3
  sizes : List ℝ
  dx : ℝ
  theta : Option ℝ
  phi : Option ℝ
  sphereSizes : List ℝ
  spherePos : List Vec3

/-- The spheres checked against a bead: `functions_positions.py` lines 108-111 and 129-132. -/
noncomputable def DumbArgs.countSpheres (A : DumbArgs) (p : Vec3) (a : ℝ) (c : ℕ) : Place ℕ :=
  countClose p a (fun j => A.spherePos[j]?) (fun j => A.sphereSizes[j]?) A.sphereSizes.length c

/-- The earlier beads checked against a bead: `functions_positions.py` lines 113-116 and 134-137. `beads`
holds the rows of `bead_positions` already filled. -/
noncomputable def DumbArgs.countBeads (A : DumbArgs) (beads : List Vec3) (i : ℕ) (p : Vec3) (a : ℝ) (c : ℕ) :
    Place ℕ :=
  countClose p a (fun j => beads[j]?) (fun j => A.sizes[j / 2]?) (2 * i) c

/-- Spheres first, then the earlier beads unless a sphere overlaps: `functions_positions.py` lines 108-116 and
130-138. -/
noncomputable def DumbArgs.countBoth (A : DumbArgs) (beads : List Vec3) (i : ℕ) (p : Vec3) (a : ℝ) (c : ℕ) :
    Place ℕ := do
  let c ← A.countSpheres p a c
  if c = 0 then A.countBeads beads i p a c else pure c

open Classical in
/-- The test that the second bead is in the box: `functions_positions.py` lines 128-129. -/
noncomputable def DumbArgs.inBox (A : DumbArgs) (p : Vec3) : Bool :=
  decide ((∀ c, p c ≥ A.bl c) ∧ ∀ c, p c ≤ A.tr c)

/-- The `for _ in range(100)` loop for the second bead: `functions_positions.py` lines 119-140; the first
number is the tries left. -/
noncomputable def tryBead2 (w : ℕ → ℝ) (A : DumbArgs) (beads : List Vec3) (i : ℕ) (a : ℝ) (b1 : Vec3) :
    ℕ → ℕ → ℕ → Place (Option Vec3 × ℕ)
  | 0, _, k => pure (none, k)
  | t + 1, c, k => do
    let (th, ph, k) := drawAngles w A.theta A.phi k
    let b2 := bead2At b1 A.dx th ph
    if A.inBox b2 then
      let c ← A.countBoth beads i b2 a c
      if c = 0 then pure (some b2, k) else tryBead2 w A beads i a b1 t c k
    else tryBead2 w A beads i a b1 t c k

/-- The `while True` loop of `randomise_dumbbells`: `functions_positions.py` lines 104-142. -/
noncomputable def proposeDumbbell (w : ℕ → ℝ) (A : DumbArgs) (beads : List Vec3) (i : ℕ) (a : ℝ) :
    ℕ → ℕ → Place (Vec3 × Vec3 × ℕ)
  | 0, _ => throw PlaceError.unfinished
  | fuel + 1, k => do
    let b1 := random_point_in_box w k A.bl A.tr
    let c ← A.countBoth beads i b1 a 0
    if c = 0 then
      match ← tryBead2 w A beads i a b1 100 c (k + 3) with
      | (some b2, k) => pure (b1, b2, k)
      | (none, k) => proposeDumbbell w A beads i a fuel k
    else proposeDumbbell w A beads i a fuel (k + 3)

/-- The `for i` loop of `randomise_dumbbells`: `functions_positions.py` lines 103-149. -/
noncomputable def placeDumbbells (fuel : ℕ) (w : ℕ → ℝ) (A : DumbArgs) :
    List ℝ → ℕ → List Vec3 → List (Vec3 × Vec3) → ℕ → Place (List (Vec3 × Vec3) × ℕ)
  | [], _, _, out, k => pure (out, k)
  | a :: rest, i, beads, out, k => do
    let (b1, b2, k') ← proposeDumbbell w A beads i a fuel k
    placeDumbbells fuel w A rest (i + 1) (beads ++ [b1, b2])
      (out ++ [(fun c => 0.5 * (b1 c + b2 c), fun c => b2 c - b1 c)]) k'

/-- The bead positions rebuilt for the statistic: `functions_positions.py` lines 152-153 and 294-295. -/
noncomputable def rebuiltBeads (out : List (Vec3 × Vec3)) : List Vec3 :=
  (out.map fun d => (fun c => d.1 c + 0.5 * d.2 c : Vec3))
    ++ out.map fun d => (fun c => d.1 c - 0.5 * d.2 c : Vec3)

/-- `randomise_dumbbells`: `functions_positions.py` lines 87-179; the result lists
`(dumbbell_positions[i], dumbbell_deltax[i])`. The volume fraction (lines 162-177) is only printed and not
modelled. -/
noncomputable def randomise_dumbbells (fuel : ℕ) (w : ℕ → ℝ) (k : ℕ) (A : DumbArgs) :
    Place (List (Vec3 × Vec3) × ℕ) := do
  let (out, k') ← placeDumbbells fuel w A A.sizes 0 [] [] k
  minElementDistance (rebuiltBeads out)
  pure (out, k')

/-- Position setup 5, 41 spheres in a square: `setups/positions.py` lines 96-107. -/
noncomputable def setup5 (fuel : ℕ) (w : ℕ → ℝ) (k : ℕ) : Place (List Vec3 × ℕ) :=
  let L : ℝ := 16.2
  randomise_spheres fuel w k ![-L / 2 + 1, 0, -L / 2 + 1] ![L / 2 - 1, 0, L / 2 - 1] (List.replicate 41 1) [] []

/-- The walls of position setup 6, of spheres of radius 1: `setups/positions.py` lines 119-127. -/
noncomputable def setup6Walls : List Vec3 :=
  let sep : ℝ := 2.00001
  ((List.range 45).map fun (i : ℕ) => ![sep * i - (45 / 2 : ℕ) * sep, 0, 0])
    ++ (List.range 45).map fun (i : ℕ) => ![sep * i - (45 / 2 : ℕ) * sep, 0, 11]

/-- The arguments of the placement in setup 6: `setups/positions.py` lines 130-135. The walls are not passed
on, so the defaults of `functions_positions.py` lines 89-90 (no spheres) are used. -/
noncomputable def setup6Args : DumbArgs where
  bl := ![-17, 0, 1 + 2 * 0.1]
  tr := ![17, 0, 10 - 2 * 0.1]
  sizes := List.replicate (100 * 2) 0.1
  dx := 2
  theta := none
  phi := some 0
  sphereSizes := []
  spherePos := []

end SD
