import Verif.Model.Layout
import Verif.Model.Timestep
import Verif.Model.Ewald

/-!
# `functions/graphics.py`, `plotting/make_video.py` and `plotting/plot_positions.py`: what is drawn

The pictures are modelled up to the calls of matplotlib: where points are put, which numbers are given as
colours, which arrows are drawn. The state of the axes is the viewing angle (`ax.elev`, `ax.azim`), in
degrees. `none` is an exception.
-/

set_option autoImplicit false

namespace SD

open Classical in
/-- `rotation_matrix(d)`: `functions/graphics.py` lines 25-46. Simplification: for a vector longer than 1
the code takes the square root of a negative number and gets `nan`; here that root is 0. Both callers give
vectors of length at most 1. -/
noncomputable def rotation_matrix (d : Vec3) : Mat3 :=
  let sin_angle := norm3 d
  if sin_angle = 0 then fun i j => if i = j then 1 else 0
  else
    let e : Vec3 := fun k => d k / sin_angle
    let skew : Mat3 := ![![0, e 2, -e 1], ![-e 2, 0, e 0], ![e 1, -e 0, 0]]
    fun i j => e i * e j + Real.sqrt (1 - sin_angle ^ 2) * ((if i = j then 1 else 0) - e i * e j)
      + sin_angle * skew i j

open Classical in
/-- `from0topi(n)`: `functions/graphics.py` lines 361-365. -/
noncomputable def from0topi (n : ℝ) : ℝ := if n < 0 then n + Real.pi else n

open Classical in
/-- `sign(n)`: `functions/graphics.py` lines 368-374. -/
noncomputable def plotSign (n : ℝ) : ℝ := if n > 0 then 1 else if n = 0 then 0 else -1

/-- `normal(ax)`: `functions/graphics.py` lines 377-380. -/
noncomputable def plotNormal (elev azim : ℝ) : Vec3 :=
  let theta := from0topi (elev * Real.pi / 180)
  let phi := azim * Real.pi / 180
  ![Real.cos theta * Real.cos phi, Real.cos theta * Real.sin phi, Real.sin theta]

open Classical in
/-- `between0and1(num)`: `functions/graphics.py` lines 85-92. -/
noncomputable def between0and1 (num : ℝ) : ℝ := if num < 0 then 0 else if num > 1 then 1 else num

/-- The place of the vertex `(x, y)` of a patch after `pathpatch_2d_to_3d(p, z=0, normal=n)` and
`pathpatch_translate(p, delta)`: `functions/graphics.py` lines 60, 73-77, 80-82, as called at lines 113-115
and 174-181. Simplification: the vertices of the patch itself are matplotlib's, so the vertex is an
argument. -/
noncomputable def patchVertex (n delta : Vec3) (x y : ℝ) : Vec3 :=
  let n' : Vec3 := fun k => n k / norm3 n
  let M := rotation_matrix (npCross n' ![0, 0, 1])
  fun k => matVec3 M ![x, y, 0] k + delta k

/-- `distance_from_screen`: `functions/graphics.py` lines 118, 123, 129. -/
noncomputable def screenDistance (elev azim : ℝ) (pos : Vec3) : ℝ :=
  Ewald.dot3 pos (plotNormal elev azim) * plotSign elev

/-- The grey level `sh2` or `sh3` of the orientation line of a sphere to `mark`:
`functions/graphics.py` lines 117-132 (before it is made a string). For radius 0 the code divides by zero. -/
noncomputable def lineShade (elev azim : ℝ) (position : Vec3) (radius : ℝ) (mark : Vec3) : ℝ :=
  let d1 := screenDistance elev azim position
  let hi := d1 + radius
  let lo := d1 - radius
  0.5 * between0and1 ((screenDistance elev azim mark - lo) / (hi - lo))

/-- `sphere_colour` (red, green, blue): `functions/graphics.py` lines 197-198. -/
noncomputable def sphereColour (f : Vec3) : Vec3 :=
  let C := between0and1 (norm3 f)
  ![C, 0, 1 - C]

/-- `np.max` of a list of numbers: `functions/graphics.py` lines 221-222. `none` is the `ValueError` for
an empty one. -/
noncomputable def npMaxList : List ℝ → Option ℝ
  | [] => none
  | a :: l => some (l.foldl max a)

/-- The entries of an array of `n` rows: `functions/graphics.py` lines 221-222. -/
def rowEntries (n : ℕ) (f : ℕ → Vec3) : List ℝ := (List.range n).flatMap fun i => [f i 0, f i 1, f i 2]

/-- `force_on_beads1`, `force_on_beads2`: `functions/graphics.py` lines 219-220. -/
noncomputable def beadForces (F DF : ℕ → Vec3) : (ℕ → Vec3) × (ℕ → Vec3) :=
  (fun i k => 0.5 * (F i k - DF i k), fun i k => 0.5 * (F i k + DF i k))

open Classical in
/-- The number `C` for a bead: `functions/graphics.py` lines 225-230, 232-237. -/
noncomputable def beadRed (m : ℝ) (f : Vec3) : ℝ := if m = 0 then 0 else between0and1 (norm3 f / m) ^ 2

/-- The colours of the two beads of each dumbbell in `plot_all_dumbbells`: `functions/graphics.py` lines
219-239. `none` is the exception of `np.max` for no dumbbells; the caller asks for some. -/
noncomputable def dumbbellColours (n : ℕ) (F DF : ℕ → Vec3) : Option (ℕ → Vec3 × Vec3) :=
  let b := beadForces F DF
  (npMaxList (rowEntries n b.1)).bind fun m1 => (npMaxList (rowEntries n b.2)).bind fun m2 =>
    let m := 0.5 * max m1 m2
    some fun i =>
      (![beadRed m (b.1 i), 1 - beadRed m (b.1 i), 0], ![beadRed m (b.2 i), 1 - beadRed m (b.2 i), 0])

/-- The places of the two beads in `plot_dumbbell`: `functions/graphics.py` lines 155-156. -/
noncomputable def dumbbellEnds (position dx : Vec3) : Vec3 × Vec3 :=
  (fun k => position k - 0.5 * dx k, fun k => position k + 0.5 * dx k)

/-- An arrow: the sphere it belongs to, its foot and its point (`Arrow3D`: `functions/graphics.py` lines
13-16). -/
structure Arrow where
  sphere : ℕ
  foot : Vec3
  tip : Vec3

open Classical in
/-- `plot_all_force_lines`: `functions/graphics.py` lines 256-283. The array `f_spheres` is multiplied by 6
each time an arrow is drawn (line 264) and stays so for the spheres after it; the fold carries it. -/
noncomputable def plot_all_force_lines (n : ℕ) (pos f_spheres : ℕ → Vec3) : List Arrow :=
  ((List.range n).foldl
    (fun (s : (ℕ → Vec3) × List Arrow) i =>
      if s.1 i ≠ ![0, 0, 0] ∧ pos i 1 < 0.05 ∧ pos i 1 > -1 then
        let f : ℕ → Vec3 := fun j k => s.1 j k * 6
        (f, s.2 ++ [⟨i, pos i, fun k => pos i k + f i k⟩])
      else s)
    (f_spheres, [])).2

open Classical in
/-- `plot_all_torque_lines`, the arrows of `plot_all_velocity_lines`, and
`plot_all_angular_velocity_lines`: `functions/graphics.py` lines 286-302, 305-320, 342-358. -/
noncomputable def plot_all_lines (n : ℕ) (pos v : ℕ → Vec3) : List Arrow :=
  (List.range n).foldl
    (fun s i => if v i ≠ ![0, 0, 0] then s ++ [⟨i, pos i, fun k => pos i k + v i k⟩] else s) []

open Classical in
/-- Whether `plot_sphere` draws a piece of the path: `functions/graphics.py` line 145. -/
noncomputable def tracesPath (trace_paths : ℤ) (frameno : ℕ) : Bool :=
  decide (trace_paths > 0) && decide ((frameno : ℤ) % trace_paths = 0)

/-! ## `plotting/make_video.py` -/

/-- `num_frames`: `plotting/make_video.py` lines 73-76; `saved` is `positions_centres.shape[0]`.
Simplification: natural numbers, so the range ends no earlier than it starts. `none` is the exception of a
division by zero. -/
def videoFrames (saved every start stop : ℕ) : Option ℕ :=
  if every = 0 then none
  else some (if stop = 0 then saved / every else (stop - start) / every)

/-- `real_frameno`: `plotting/make_video.py` line 151. The positions are those of this frame (lines
159-162). -/
def realFrame (every start frameno : ℕ) : ℕ := frameno * every + start

/-- The number in the saved arrays of forces that is used: `plotting/make_video.py` lines 165-172; `len` is
the length of the arrays. Index `-1` is the last one. -/
def forceFrame (len num_frames frameno : ℕ) : ℕ :=
  if frameno + 1 = num_frames then (if frameno = 0 then len - 1 else frameno - 1) else frameno

/-- `X_lmn_canonical`: `plotting/make_video.py` lines 189-197. -/
def videoGridpoints : List (Fin 3 → ℤ) :=
  [(-1 : ℤ), 0, 1].flatMap fun l => [(0 : ℤ)].flatMap fun m => [(-1 : ℤ), 0, 1].map fun n => ![l, m, n]

/-- `sheared_basis_vectors`: `plotting/make_video.py` lines 200-203. -/
noncomputable def videoBasis (bl tr Ot : Vec3) (Et : Mat3) : Mat3 :=
  let L : Vec3 := fun i => tr i - bl i
  shear_basis_vectors (basis_canonical L) L Ot Et

open Classical in
/-- `X_lmn`: `plotting/make_video.py` lines 182-185, 204, 232-234. Sides are positive, as the cube root of
line 185 needs. -/
noncomputable def videoImages (bl tr Ot : Vec3) (Et : Mat3) : List Vec3 :=
  let L := ((tr 0 - bl 0) * (tr 1 - bl 1) * (tr 2 - bl 2)) ^ ((1 : ℝ) / 3)
  (videoGridpoints.map (Ewald.gridVec (videoBasis bl tr Ot Et))).filter fun X =>
    decide (norm3 X ≤ 1.4142 * 1 * L)

open Classical in
/-- The corners of the red box: `plotting/make_video.py` lines 207-220: the product of the matrix of
`sheared_basis_vectors` with the column of coordinates of each corner. `none` is the `LinAlgError` for a box
without volume (`basis_canonical` is diagonal, so `np.linalg.solve` divides by the sides). -/
noncomputable def videoCorners (bl tr Ot : Vec3) (Et : Mat3) : Option (Fin 4 → Vec3) :=
  if ∃ i, tr i - bl i = 0 then none
  else
    let corners : Fin 4 → Vec3 :=
      ![![bl 0, 0, bl 2], ![bl 0, 0, tr 2], ![tr 0, 0, tr 2], ![tr 0, 0, bl 2]]
    some fun c => matVec3 (videoBasis bl tr Ot Et) fun i => corners c i / (tr i - bl i)

/-- What is handed to the drawing functions for a frame: `plotting/make_video.py` lines 256-263, 274-281:
positions of the spheres, their orientation marks, their radii, and their forces. -/
structure VideoFrame where
  spheres : List Vec3
  marks : List (Vec3 × Vec3)
  radii : List ℝ
  forces : List Vec3

/-- `np.concatenate([a + X for X in X_lmn])`: `plotting/make_video.py` lines 236-239, 245-255. -/
def overImages {α β : Type} (Xs : List Vec3) (f : Vec3 → α → β) (l : List α) : List β :=
  Xs.flatMap fun X => l.map (f X)

open Classical in
/-- `generate_frame(frameno, …)` as far as the drawing of spheres: `plotting/make_video.py` lines 137-281.
`centres`, `marks` and `Fa` are the saved arrays, frame by frame, `Ns` and `Nd` the numbers of spheres and
dumbbells, `saved` and `savedF` the numbers of frames in them, and `input` gives `Ot_infinity`,
`Et_infinity`, `box_bottom_left` and `box_top_right` as a function of the frame (`input_ftsuoe`, lines
175-180). `none` is an exception: an index out of range (lines 159, 166, 170), and with dumbbells the
`TypeError` of the call at lines 279-281, which gives `plot_all_dumbbells` one argument more than it
takes. Simplifications: the times, titles and the bookkeeping of matplotlib's artists are left out; that the
drawing functions are given global `posdata` with the copies in it, which the next call of `input_ftsuoe`
gets, is covered by `input` being arbitrary. -/
noncomputable def video_frame (centres : ℕ → ℕ → Vec3) (marks : ℕ → ℕ → Vec3 × Vec3) (Fa : ℕ → ℕ → Vec3)
    (Ns Nd saved savedF : ℕ) (input : ℕ → Vec3 × Mat3 × Vec3 × Vec3) (num_frames every start frameno : ℕ) :
    Option VideoFrame :=
  let real := realFrame every start frameno
  let k := forceFrame savedF num_frames frameno
  if real < saved ∧ k < savedF ∧ Nd = 0 then
    let (Ot, Et, bl, tr) := input real
    let pos := (List.range Ns).map (centres real)
    let rot := (List.range Ns).map (marks real)
    let radii := (List.range Ns).map fun _ => (1 : ℝ)
    let F := (List.range Ns).map (Fa k)
    if norm3 (fun i => tr i - bl i) > 0 then
      (videoCorners bl tr Ot Et).map fun _ =>
        let Xs := videoImages bl tr Ot Et
        ⟨overImages Xs (fun X p i => p i + X i) pos,
          overImages Xs (fun X p => (fun i => p.1 i + X i, fun i => p.2 i + X i)) rot,
          overImages Xs (fun _ r => r) radii, overImages Xs (fun _ f => f) F⟩
    else some ⟨pos, rot, radii, F⟩
  else none

/-- `plotting/plot_positions.py` lines 43-61, 98-106: the spheres drawn for the chosen frame, their radii
and forces. `none` is an exception: an index out of range, and with dumbbells the call at lines 104-106,
which gives `plot_all_dumbbells` the frame number in the place of the positions. -/
noncomputable def plotPositions (centres : ℕ → ℕ → Vec3) (Fa : ℕ → ℕ → Vec3) (Ns Nd saved savedF frameno : ℕ) :
    Option (List Vec3 × List ℝ × List Vec3) :=
  if frameno < saved ∧ frameno < savedF ∧ Nd = 0 then
    some ((List.range Ns).map (centres frameno), (List.range Ns).map (fun _ => (1 : ℝ)),
      (List.range Ns).map (Fa frameno))
  else none

end SD
