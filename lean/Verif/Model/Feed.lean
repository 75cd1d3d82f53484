import Verif.Model.Setups

/-!
# `functions/shared.py`: feeding particles from below

The call in `run_simulation.py` lines 172-179 stands inside a string, so a run never feeds. The function itself is
modelled here.
-/

set_option autoImplicit false

namespace SD

/-- Ways in which `feed_particles_from_bottom` does not return: `IndexError` without the reference sphere
(`functions/shared.py` line 343), `ValueError` of `np.max` and `np.min` on an empty array (lines 342-345, 369,
381) or `IndexError` if that array has no second axis, no file or no frame (lines 358-362), `TypeError` of a slice with
a float bound (line 414). -/
inductive FeedError
  | index | empty | file | floatSlice
  deriving DecidableEq

/-- `bead_positions`: `functions/shared.py` lines 339-341 and 363-365. -/
noncomputable def feedRows (P : PosData) : List Vec3 :=
  ((List.range P.Nd).map fun d c => P.dumbPos d c + 0.5 * P.dumbDx d c)
    ++ (List.range P.Nd).map fun d c => P.dumbPos d c - 0.5 * P.dumbDx d c

/-- `np.max`: `functions/shared.py` lines 342, 369. -/
noncomputable def npMax : List ℝ → Except FeedError ℝ
  | [] => .error .empty
  | a :: r => .ok (r.foldl max a)

/-- `np.min`: `functions/shared.py` lines 344, 373, 381. -/
noncomputable def npMin : List ℝ → Except FeedError ℝ
  | [] => .error .empty
  | a :: r => .ok (r.foldl min a)

open Classical in
/-- `overlap == 0`: `functions/shared.py` lines 385-389. -/
noncomputable def feedClear (keep : List Vec3) (a : ℝ) (s : Vec3) : Bool :=
  !keep.any fun t => decide (norm3 (s - t) ≤ 2 * a)

open Classical in
/-- `new_bead_positions`: `functions/shared.py` lines 338-411. `sort` is `[bead[:, 2].argsort()]`, line 367, which
does not say in what order beads of the same height come; `file` is the content of the file; `r` is
`reference_particle`. The printing of lines 349-350 and 374-381 is left out except that `np.min` of no beads raises. -/
noncomputable def feedBeads (sort : List Vec3 → List Vec3) (file : Option Saved) (P : PosData) (r : ℕ) :
    Except FeedError (List Vec3) := do
  let before := P.Nd * 2
  let rows := feedRows P
  if P.Ns ≤ r then .error .index else
  let z := P.spherePos r 2
  let up ← npMax (rows.map fun p => p 2 - z)
  let low ← npMin (rows.map fun p => p 2 - z)
  let down := -low
  let needed := 0.5 * (up - down)
  let keep := rows.filter fun p => p 2 ≤ z + down + needed
  let deleted := before - keep.length
  match file.bind fun d => same_setup_as d 0 (P.sphereSize 0) (P.dumbSize 0) with
  | none => .error .file
  | some c =>
    let add := (sort (feedRows c.P)).take deleted
    let top ← npMax (add.map fun p => p 2)
    let bottom ← npMin (rows.map fun p => p 2)
    let add := add.map fun p => p - ![0, 0, top - bottom]
    let _ ← npMin (keep.map fun p => p 2)
    let new := keep ++ add.filter (feedClear keep (P.dumbSize 0))
    let new := if new.length > before then new.take before else new
    if new.length < before then
      .ok (new ++ (rows.filter fun p => p 2 > z + down + needed).take (before - new.length))
    else .ok new

/-- `feed_particles_from_bottom`: `functions/shared.py` lines 318-424. The bound `new_bead_positions.shape[0]/2` of
the slice in line 414 is a float in Python 3, so that line raises; the lines after it are not reached and not
modelled. -/
noncomputable def feed_particles_from_bottom (sort : List Vec3 → List Vec3) (file : Option Saved) (c : Config)
    (every frameno r : ℕ) : Except FeedError Config :=
  if every = 0 ∨ frameno % every ≠ 0 ∨ frameno = 0 then .ok c
  else do
    let _ ← feedBeads sort file c.P r
    .error .floatSlice

end SD
