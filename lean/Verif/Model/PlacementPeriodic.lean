import Verif.Model.Placement

/-!
# Random placement of dumbbells in a periodic box: `randomise_dumbbells_periodic`

`setups/functions_positions.py` lines 192-326. Periodic in `x` and `z`. The streams of random numbers and the bound
on the rounds of a loop are as in `Verif.Model.Placement`.
-/

set_option autoImplicit false

namespace SD

/-- The counting loops with a displaced neighbour: `functions_positions.py` lines 218-223, 225-230, 246-252,
254-260. -/
noncomputable def countClosePeriodic (p : Vec3) (a : ℝ) (pos : ℕ → Option Vec3) (size : ℕ → Option ℝ) (n : ℕ)
    (dxy : Vec3) (too_close : ℕ) : Place ℕ :=
  (List.range n).foldlM (fun c j =>
    match pos j, size j with
    | some q, some b => pure (if overlaps_periodic p q a b dxy then c + 1 else c)
    | _, _ => throw PlaceError.index) too_close

/-- The displacements `np.array([m*Dx, 0, n*Dz])` in the order of the loops: `functions_positions.py` lines 205,
215-217, 243-245, 269-271. -/
noncomputable def DumbArgs.shifts (A : DumbArgs) : List Vec3 :=
  ([-1, 0, 1] : List ℝ).flatMap fun m => ([-1, 0, 1] : List ℝ).map fun n =>
    ![m * (A.tr 0 - A.bl 0), 0, n * (A.tr 2 - A.bl 2)]

/-- Spheres, then the earlier beads if nothing was too close so far, for one displacement:
`functions_positions.py` lines 218-230 and 246-260. -/
noncomputable def DumbArgs.countShift (A : DumbArgs) (beads : List Vec3) (i : ℕ) (p : Vec3) (a : ℝ) (c : ℕ)
    (dxy : Vec3) : Place ℕ := do
  let c ← countClosePeriodic p a (fun j => A.spherePos[j]?) (fun j => A.sphereSizes[j]?) A.sphereSizes.length dxy c
  if c = 0 then countClosePeriodic p a (fun j => beads[j]?) (fun j => A.sizes[j / 2]?) (2 * i) dxy c else pure c

/-- The loops over `m` and `n`: `functions_positions.py` lines 215-230 and 243-260. -/
noncomputable def DumbArgs.countImages (A : DumbArgs) (beads : List Vec3) (i : ℕ) (p : Vec3) (a : ℝ) (c : ℕ) :
    Place ℕ :=
  A.shifts.foldlM (A.countShift beads i p a) c

/-- The `for _ in range(100)` loop for the second bead: `functions_positions.py` lines 233-263. The count
`too_close` is not set back between the tries. -/
noncomputable def tryBead2Periodic (w : ℕ → ℝ) (A : DumbArgs) (beads : List Vec3) (i : ℕ) (a : ℝ) (b1 : Vec3) :
    ℕ → ℕ → ℕ → Place (Option Vec3 × ℕ)
  | 0, _, k => pure (none, k)
  | t + 1, c, k => do
    let (th, ph, k) := drawAngles w A.theta A.phi k
    let b2 := bead2At b1 A.dx th ph
    let c ← A.countImages beads i b2 a c
    if c = 0 then pure (some b2, k) else tryBead2Periodic w A beads i a b1 t c k

/-- The `while True` loop: `functions_positions.py` lines 211-265. -/
noncomputable def proposeDumbbellPeriodic (w : ℕ → ℝ) (A : DumbArgs) (beads : List Vec3) (i : ℕ) (a : ℝ) :
    ℕ → ℕ → Place (Vec3 × Vec3 × ℕ)
  | 0, _ => throw PlaceError.unfinished
  | fuel + 1, k => do
    let b1 := random_point_in_box w k A.bl A.tr
    let c ← A.countImages beads i b1 a 0
    if c = 0 then
      match ← tryBead2Periodic w A beads i a b1 100 c (k + 3) with
      | (some b2, k) => pure (b1, b2, k)
      | (none, k) => proposeDumbbellPeriodic w A beads i a fuel k
    else proposeDumbbellPeriodic w A beads i a fuel (k + 3)

open Classical in
/-- Whether the interactive prompt is opened: `functions_positions.py` lines 267-278. Only the first `i` rows of
`bead_positions` are looked at. -/
noncomputable def DumbArgs.alarm (A : DumbArgs) (beads : List Vec3) (i : ℕ) (b1 b2 : Vec3) : Bool :=
  decide (∃ dxy ∈ A.shifts, ∃ p ∈ beads.take i, norm3 (b2 - (p + dxy)) < 0.2 ∨ norm3 (b1 - (p + dxy)) < 0.2)

/-- The periods used for the centres, `[Dx, 1e6, Dz]`: `functions_positions.py` line 289. -/
noncomputable def DumbArgs.modPeriods (A : DumbArgs) : Vec3 := ![A.tr 0 - A.bl 0, 1000000, A.tr 2 - A.bl 2]

/-- The centre moved into the box: `functions_positions.py` lines 287-290. For a box without extent in `x` or `z`
the code gives `nan`; the theorems exclude this. -/
noncomputable def DumbArgs.wrapCentre (A : DumbArgs) (x : Vec3) : Vec3 := fun c =>
  npMod (x c - A.bl c) (A.modPeriods c) + A.bl c

/-- The `for i` loop: `functions_positions.py` lines 210-290. An interactive prompt counts as not returning. -/
noncomputable def placeDumbbellsPeriodic (fuel : ℕ) (w : ℕ → ℝ) (A : DumbArgs) :
    List ℝ → ℕ → List Vec3 → List (Vec3 × Vec3) → ℕ → Place (List (Vec3 × Vec3) × ℕ)
  | [], _, _, out, k => pure (out, k)
  | a :: rest, i, beads, out, k => do
    let (b1, b2, k') ← proposeDumbbellPeriodic w A beads i a fuel k
    if A.alarm beads i b1 b2 then throw PlaceError.prompt
    else
      placeDumbbellsPeriodic fuel w A rest (i + 1) (beads ++ [b1, b2])
        (out ++ [(A.wrapCentre fun c => 0.5 * (b1 c + b2 c), fun c => b2 c - b1 c)]) k'

/-- `randomise_dumbbells_periodic`: `functions_positions.py` lines 192-326; the result lists
`(dumbbell_positions[i], dumbbell_deltax[i])`. The pitch and the volume fraction (lines 301-324) are only printed and
not modelled. -/
noncomputable def randomise_dumbbells_periodic (fuel : ℕ) (w : ℕ → ℝ) (k : ℕ) (A : DumbArgs) :
    Place (List (Vec3 × Vec3) × ℕ) := do
  let (out, k') ← placeDumbbellsPeriodic fuel w A A.sizes 0 [] [] k
  minElementDistance (rebuiltBeads out)
  pure (out, k')

end SD
