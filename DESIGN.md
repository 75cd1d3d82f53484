# Formal model of stokesian-dynamics: design

## What this is

A Lean 4 model of the Python code in `/repo` (stokesian-dynamics, pinned commit) and kernel-checked
proofs of the properties listed in `properties.jsonl`. The model is written by hand from the source
text, function by function. Every definition of the model carries a comment that cites the file and
the lines it models and says where it simplifies. Nothing of `/repo` was built, run or changed.

Layout of `lean/Verif/`:

* `Model/*`  – definitions that mirror the code, branch by branch (no theorems).
* `Spec/*`   – small independent specifications: what the property statements speak about.
* `Lemmas/*` – helper lemmas.
* `Props/*`  – the property theorems, named `Cnn_…`; beside each stands a concrete, non-trivial case
  that meets its hypotheses (an `example`, or a companion theorem). A suffix `_partial` marks a theorem
  that proves less than the property says; the full claim and the gap are written beside it.

`MANIFEST.json` maps every property to its theorems. `seeded/LOG.jsonl` records the wrong programs
(edits of the model) that the theorems were tried against.

## Trusted base

1. **Lean's kernel** (Lean 4.33.0) and Mathlib's definitions of the objects that occur in statements
   (`ℝ`, `Matrix`, `Finset.sum`, `Real.sqrt`, the trigonometric and exponential functions, the interval
   integral, `HasDerivAt`, `Filter.Tendsto`, `Int.fract`, `List`, `Option`).
2. **Axioms.** Only the three standard ones: `propext`, `Classical.choice`, `Quot.sound`. The project
   declares no axiom and uses no `sorry`, `admit`, `native_decide`, `bv_decide`, `implemented_by` or
   `unsafe`. Appendix A lists the axioms of every property theorem.
3. **The hand translation from Python to Lean**, that is, that the definitions of `Model/*` say what the
   cited lines do. The conventions:
   * **Floats are real numbers.** Rounding, overflow, NaN and infinities are not modelled. Where Python
     would divide by zero, the code's own guard appears as a branch or a hypothesis, or the error is a
     failing value. Decimal literals (`1e-10`, `2.001`, `1.4142`) are the exact decimals.
   * **Arrays** are functions on indices together with their sizes (`NDMat`), or lists. Slice assignment
     is a pointwise update (`writeAt`). numpy's truncation of slices beyond the end and broadcasting are
     not modelled; the shapes agree in every modelled use. Aliasing is modelled only where it matters
     (the cached inverse under `use_Minfinity_only`).
   * **`np.linalg.inv` / `np.linalg.solve`** are the exact inverse and solution and fail exactly when the
     matrix is singular.
   * **Exceptions** (`throw_error`, `IndexError`, `TypeError`, `ValueError`, `LinAlgError`, a missing file)
     are the value `none`; the program stops there.
   * **Random numbers** are an arbitrary stream; loops that may run for ever take fuel, and theorems
     quantify over all streams and all fuel.
   * **Floats in printed text** (`format_elapsed_time`) are exact reals printed with Python's rules.
   * **sqrt/arccos/arctan2/erfc** are the real functions (`erfc` is defined by its integral).
4. **The specifications** in `Spec/*`: that they say in Lean what the English statements say.

Not in the trusted base: the text of `properties.jsonl` beyond its role as the English reading.

## Which parts of the code are modelled

| file (below `stokesian_dynamics/` unless said) | modelled | not modelled |
|---|---|---|
| `functions/shared.py` | `cond_idx`, `cond_E`, `norm`, `levi`, `contraction`, `submatrix_coords_tuple`, `is_*`, `posdata_data` (as the structure `PosData`), `shear_basis_vectors`, `close_particles` (both cases), `format_elapsed_time`, `same_setup_as`, `feed_particles_from_bottom` up to the line that raises, `add_sphere_rotations_to_positions` (shape only) | `throw_error` printing |
| `functions/simulation_tools.py` | everything used by a run: condensing, packing, unpacking, the four matrix conversions | – |
| `functions/timestepping.py` | `generate_output_FTSUOE`, the Euler and AB2 steps for positions and orientations, `wrap_around`, background flow, explosion test, `calculate_time_left` | console output |
| `functions/generate_Minfinity.py` | everything | – |
| `functions/generate_R2Bexact.py` | everything, in the unbounded and in the periodic domain (`Model/R2BPeriodic`) | printing |
| `functions/generate_Minfinity_periodic.py` | everything (`Model/Ewald`); theorems C50–C54 concern the kernels, the blocks, the lattice and the assembled matrix, C77 large boxes and C82 many layers | – |
| `functions/generate_grand_resistance_matrix.py` | both functions, every branch; the frame loop is modelled for arbitrary generators of the periodic matrices; `boxWorld` (`Model/R2BPeriodic`) fills in those of the code | printing and timing |
| `functions/graphics.py` | what is given to matplotlib: places of discs, shades, colours, arrows | text labels, the artists of matplotlib, projection and painting |
| `plotting/make_video.py`, `plotting/plot_positions.py` | choice of frames, copies, box, what is given to the drawing functions | finding the file, titles, timing, writing the video |
| `functions/email.py` | – | all (no effect on results) |
| `run_simulation.py` | start-up checks, `generate_frame` for the three schemes, cache schedule, saving, backup, final save | console output, video, e-mail, wall clock (an arbitrary stream) |
| `settings.py` | command-line override | default values (the theorems hold for every value) |
| `setups/inputs.py` | everything (the seven shipped numbers and the error branch, C66); elsewhere an arbitrary function from frame and positions to prescribed values | the negative numbers, which only the tests use |
| `setups/functions_inputs.py` | everything | – |
| `setups/positions.py` | everything: all listed setups (C72), checkpoint override (`resume`) | the negative numbers, which only the tests use |
| `setups/functions_positions.py` | `randomise_spheres`, `randomise_dumbbells`, `randomise_dumbbells_periodic`, `simple_cubic_8`, `point_inside_polygon`, the quadrilateral placement and their helpers | printed statistics |
| `resistance_scalars/data.py` | size-ratio table, file choice, the numbers in `scalars_general_resistance_d.npy` (`Model/ShippedData`, used in C85–C87; elsewhere a `ScalarTable` is arbitrary) | the numbers in the other data files |
| `find_resistance_scalars/functions_nearfield.py`, `generate_scalars_nearfield.py` | everything that reaches the table | plotting leftovers |
| `find_resistance_scalars/generate_scalars_midfield.py` | conversion, decoding, non-dimensionalisation, table rows | the Fortran two-sphere program `helen_fortran/*` (its output is a parameter) |
| `find_resistance_scalars/subtract_R2Binfinity*.py` | the subtraction and the read-off | file handling |
| `find_resistance_scalars/combine_scalars.py` | the combined table | the plot at the end (line 67 stops with an `AttributeError`) |
| `find_resistance_scalars/subtract_R2Binfinitydrag_from_scalars.py` | the new table | reading and writing the files |
| `find_resistance_scalars/functions_general.py` | `format_seconds` | the rest |
| `examples/example-a.py` 28-50, `examples/example-c.py` 28-49 | `Model/Examples` | what the scripts compute from the saved file, up to the calls that plot |
| `tests/*`, `examples/example-b.py` | – | not part of the program; example (b) computes nothing |

Appendix B lists every definition of the model with the lines it cites.

## Properties

Status counts: proved 91, partial 12; 488 theorems.
The English statement, quantifier and anchors of each property are in `properties.jsonl`. Below: what is modelled, how it is proved, the theorems (file `lean/Verif/Props/<module>.lean`), and what is missing.

### C01 Condensing and expanding stresslets/strain rates loses nothing — proved

*Model.* `condense`, `condense_and_flatten`, `uncondense`, `contraction` on lists of 3×3 matrices with the constants √2, (√3±1)/2.

*Method.* Entry by entry algebra with `Real.sq_sqrt`; both implementations of condensing are covered.

* `SD.C01_uncondense_condense` (Condense): (first half). Expanding the condensed form of symmetric traceless matrices returns the matrices.
* `SD.C01_condense_uncondense` (Condense): (second half). Expanding any 5-vectors gives symmetric traceless matrices, whose condensation, in either of the code's two implementations, is the original list.

### C02 Condensation preserves power — proved

*Model.* The same, plus `cond_E` and the grand force and velocity vectors.

*Method.* The 5-vector basis is orthonormal for the double contraction; sum over particles by induction on the list.

* `SD.C02_condensed_power` (Condense): (per particle). The dot product of condensed 5-vectors is the double contraction.
* `SD.C02_grand_power` (Condense): (whole suspension). The dot product of the grand force vector built by the code and the grand velocity vector built by the code is the power, for any numbers of particles.

### C03 Grand vectors have one documented layout and round-trip — proved

*Model.* `construct_force_vector_from_fts` and `deconstruct_velocity_vector_for_fts` with their concatenations and slices.

*Method.* Positions in the flattened list; the layout is given by the independent index function of `Spec/Grand`.

* `SD.C03_pack` (Condense): (packing). The grand vector has length `11 Ns + 6 Nd` and every component of every particle sits at its documented place, for any counts including zero.
* `SD.C03_round_trip` (Condense): (round trip). Unpacking the packed vector returns each particle's own values.
* `SD.C03_round_trip'` (Condense): (unpacking). Any vector of the right length, unpacked and packed again, is unchanged.

### C04 Every entry of the grand matrix belongs to exactly one pair block — proved

*Model.* `submatrix_coords_tuple` and the list of rectangles assigned in each branch of the two loops.

*Method.* Linear arithmetic on block corners, with uniqueness over all pairs and blocks.

* `SD.C04_tiling` (Blocks): Every entry on or above the diagonal lies in exactly one of the blocks assigned during the loop over all pairs `u ≤ v`: no interaction is dropped, and none is overwritten by another pair or by another block of the same pair (the blocks of a sphere with itself that coincide count once).
* `SD.C04_inside` (Blocks): (range). No block reaches outside the matrix; blocks of distinct particles lie strictly above the diagonal, so the final symmetrisation loses nothing.
* `SD.C04_only_blocks` (Blocks): (the loop). The far-field loop body for a pair changes no entry outside the blocks of that pair on or above the diagonal.

### C05 FTE solve returns the physical answer — proved

*Model.* `fts_to_fte_matrix` (slices, `vecmat_mat_vecmat`, `vec_mat_cross`), `solve`, and the FTE and FTS branches of `generate_output_FTSUOE`.

*Method.* A principal-pivot lemma over arbitrary index sets (`Lemmas/Pivot`, `PivotAlg`, `CodePivot`) shows the converted system is equivalent to F = R U.

* `SD.C05_fte_correct` (Solve): Force/torque/strain input.
* `SD.C05_fts_correct` (Solve): the `fts` form: force/torque/stresslet input; no symmetry is needed.

### C06 UFTE solve returns the physical answer — proved

*Model.* `fte_to_ufte_matrix` on top of C05, with the prescribed spheres first as the code assumes.

*Method.* Second pivot on the prescribed-velocity rows.

* `SD.C06_ufte_correct` (Solve): Some first-numbered spheres at prescribed velocities.

### C07 UFTEU solve returns the physical answer — proved

*Model.* `ufte_to_ufteu_matrix` on top of C06.

*Method.* Third pivot on the prescribed dumbbell rows.

* `SD.C07_ufteu_correct` (Solve): Some first-numbered spheres and dumbbells at prescribed velocities.

### C08 DUF solve returns the physical answer — proved

*Model.* `fts_to_duf_matrix` for suspensions of dumbbells only.

*Method.* Pivot on the prescribed dumbbell rows.

* `SD.C08_duf_correct` (Solve): Dumbbells only, some first-numbered ones at prescribed velocities.

### C09 No input form can hit a singular matrix when the resistance matrix is positive definite — proved

*Model.* The conversions and solves of C05-C08.

*Method.* Quadratic form: every Schur complement and pivot of a positive definite matrix is positive definite, hence invertible.

* `SD.C09_spd_succeeds` (Solve): (no singular matrix). With a symmetric positive definite resistance matrix, every input form allowed by the start-up check, every number of fixed particles and every complete input, all intermediate inverses and the final solve exist.
* `SD.C09_unique` (Solve): (exactly one solution). For any index set of prescribed velocities (the complement having prescribed forces) a positive definite relation has at most one solution.
* `SD.C09_forms_agree` (Solve): (forms agree). Take any solution `a` of the resistance relation, for instance the output of one input form. If the inputs of another form prescribe values of that solution, the solve with the second form returns the same forces and motion.

### C10 Missing or misnumbered prescribed values are never used silently — proved

*Model.* Inputs as `Option ℝ` (`none` is the placeholder of `empty_vectors`), arithmetic on placeholders fails.

*Method.* Case analysis over the packing order; all misnumberings are covered by quantifying over which entries are placeholders.

* `SD.C10_placeholders` (Solve): In every input form and for an arbitrary matrix, the solve produces numbers only if every entry the form requires is a number and, in the mixed forms, the particles with prescribed velocities are numbered first and all the others are placeholders.
* `SD.C10_incomplete_stops` (Solve): as the user meets it: an incomplete or misnumbered input always stops the run.
* `SD.C10_extract_stops` (Solve): (wall-force extraction). With the extraction flag the `ufte` branch never produces numbers (see DESIGN.md: it always raises).

### C11 Dumbbell coordinates are consistent between mobility and resistance parts — proved

*Model.* The sparse matrices L of both generators (as coordinate lists with repeated entries summed) and the basis changes.

*Method.* Sums over coordinate lists; the two transformations are shown to be inverse transposes, so power is preserved.

* `SD.C11_mobility` (FarField): (mobility). The matrix returned acts on dumbbell forces `(F1+F2, F2-F1)` and gives dumbbell velocities `((U1+U2)/2, (U2-U1)/2)` exactly as the bead-coordinate matrix acts on bead forces and gives bead velocities.
* `SD.C11_resistance` (NearField): (resistance). The near-field matrix returned acts on dumbbell velocities `((U1+U2)/2, (U2-U1)/2)` and gives dumbbell forces `(F1+F2, F2-F1)` exactly as the bead-coordinate matrix times the viscosity acts on bead velocities and gives bead forces.
* `SD.C11_inverse` (NearField): (inverse). Inverting the far-field matrix in dumbbell coordinates is transforming the inverse of the bead-coordinate one: if `A` inverts the matrix returned and `B` the bead-coordinate matrix, then `A` turns dumbbell velocities into dumbbell forces exactly as `B` turns bead velocities into bead forces.
* `SD.C11_power` (NearField): (power). The power is the same in both coordinates.

### C12 The far-field mobility matrix is symmetric and translation invariant — proved

*Model.* `generate_Minfinity` as a whole: pair loop, slice writes, `triu` symmetrisation, dumbbell transformation.

*Method.* Loop entry lemma (`Lemmas/MinfEntry`): every entry of the final matrix is identified, then symmetry and translation are read off.

* `SD.C12_symmetric` (FarField): (symmetry), in bead coordinates and in the dumbbell coordinates that are returned.
* `SD.C12_translation` (FarField): (translation). Moving every particle by the same vector changes nothing.

### C13 Mirror blocks are right: pair (j,i) is the transpose-reciprocal of pair (i,j) — proved

*Model.* The sphere-sphere branch, with both the shortcut for equal sizes and the recomputed blocks for unequal ones.

*Method.* Parity of the closed forms under r → −r.

* `SD.C13_reciprocal` (FarField): (reciprocity). The response of one sphere to a load on the other one is the transpose of the response with the roles exchanged.
* `SD.C13_mirror_blocks` (FarField): (mirror blocks). Whatever the sizes and separation of two spheres `u < v` (also overlapping or coincident, also equal sizes where the code copies with a sign), the velocity-torque, velocity-stresslet and rotation-stresslet blocks stored for `v` due to `u` are the closed forms evaluated with the two spheres exchanged.

### C14 The Green's function derivatives are the derivatives they claim to be — proved

*Model.* The twelve closed forms of derivatives of the Oseen tensor.

*Method.* `HasDerivAt` along coordinate lines for all nonzero displacements; incompressibility and the Stokes equation away from the origin.

* `SD.C14_derivatives` (FarField): The closed forms are the derivatives they claim to be, at every non-zero displacement.
* `SD.C14_stokes` (FarField): (physics). The flow of a point force is incompressible and biharmonic.

### C15 Viscosity scaling — proved

*Model.* All matrix generators with the viscosity as a parameter.

*Method.* Homogeneity, entry by entry; inverse of a scaled matrix.

* `SD.C15_far` (GrandResistance): (far field). Multiplying the viscosity by `k` divides the far-field mobility by `k`.
* `SD.C15_near` (GrandResistance): (near field). Multiplying the viscosity by `k` multiplies the near-field resistance by `k`, and does not affect whether there is a result.
* `SD.C15_grand` (GrandResistance): (grand resistance). In every mode, multiplying the viscosity by `k` (and the matrix kept from an earlier frame, if there is one) multiplies the grand resistance matrix by `k`.
* `SD.C15_velocities` (GrandResistance): (velocities). For given forces, multiplying the viscosity by `k` divides the solution by `k`, and does not affect whether there is one.

### C16 Close or overlapping particles use a bounded, direction-preserving separation — proved

*Model.* `minfRS`, the overlap rescaling of the pair loop.

*Method.* Case analysis on the two tests; the matrix depends on a pair only through the rescaled displacement.

* `SD.C16_separation` (FarField): (separation used). Two beads further apart than `1e-8` are used at their true displacement if that is at least 2.001 average radii, and otherwise at exactly 2.001 average radii in the same direction; so the distance used is the larger of the two.
* `SD.C16_pairwise` (FarField): (effect on the matrix). The entries for two beads only depend on their sizes and on the separation used for them: two configurations in which this is the same have the same entries, whatever the other particles do. In particular overlapping beads are treated as if 2.001 average radii apart.

### C17 Far-field pair interactions are isotropic — proved

*Model.* The closed forms, then the whole matrix of a rotated configuration.

*Method.* Component form by rotation-covariant tensors; the rotation acts on 5-vectors through the basis of `Spec/Isotropy`.

* `SD.C17_components` (Isotropy): (meaning of the rules). `turnComp` turns the five components of any symmetric traceless matrix `S` to those of `Q S Qᵀ`, and the moment `r × F` of a force to the moment of the turned force at the turned point.
* `SD.C17_pair` (Isotropy): (pairs). The six pair couplings computed by the code at the turned displacement `Q r` are the turned couplings at `r`: `M(Qr) = Q M(r) Qᵀ` for velocity-force and rotation-torque, with the sign `det Q` for velocity-torque and rotation-stresslet, and with one factor `Q` for each index of a stresslet.
* `SD.C17_matrix` (Isotropy): (matrix). Turning a whole configuration of spheres and dumbbells turns every block of the far-field matrix.

### C18 Relabelling spheres relabels the matrix — proved

*Model.* Both loops and the grand resistance matrix with relabelled spheres and dumbbells; the chain of scalar scripts that makes the table.

*Method.* Far field from C13 (view of the other particle). Near field from the entry lemma and the reciprocal theorem for the table. Reciprocity of the table follows from C45/C46 for the two sources and from the symmetry of the two-sphere far field for the subtraction.

* `SD.C18_grand_of_reciprocal` (Covariance): (grand resistance, any table that satisfies the reciprocal theorem; it has to, see `C18_needs_reciprocity`, and the tables of the project's scripts do, see `C18_grand`). In every mode, renumbering spheres by a permutation `σ` and dumbbells by a permutation `τ` renumbers the loads that the grand resistance matrix gives for renumbered motions.
* `SD.C18_farfield` (FarField): (far field). Renumbering spheres by a permutation `σ` and dumbbells by a permutation `τ` permutes the rows and columns of the far-field matrix accordingly.
* `SD.C18_nearfield_of_reciprocal` (NearField): (near field, any table that satisfies the reciprocal theorem; it has to, see `C18_needs_reciprocity`, and the tables of the project's scripts do, see `C18_grand`). If the tabulated scalars satisfy the reciprocal theorem for all pairs of neighbours, renumbering spheres by a permutation `σ` and dumbbells by a permutation `τ` permutes the rows and columns of the near-field matrix accordingly.
* `SD.C18_needs_reciprocity` (NearField): (reciprocity is needed). With a table that does not satisfy the reciprocal theorem, exchanging two spheres changes their interaction.
* `SD.C18_grand` (ScalarTables): (grand resistance, with the tables the project makes). Take the near-field formulae at distances `ss`, a two-sphere program that obeys the reciprocal theorem at distances `mm`, combine the two tables and subtract the far field. Then, in every mode, renumbering spheres by a permutation `σ` and dumbbells by a permutation `τ` renumbers the loads that the grand resistance matrix gives for renumbered motions.
* `SD.C18_subtracted` (TwoSpheres): (subtraction). If the columns of a table for the size ratios `b / a` and `a / b` obey the reciprocal theorem, so do the columns of the table that the script makes from it, at every distance.
* `SD.C18_grand_subtracted` (TwoSpheres): (grand resistance, tables made by the scripts). If the columns of the original table obey the reciprocal theorem and all size ratios that occur are tabulated, renumbering spheres by a permutation `σ` and dumbbells by a permutation `τ` renumbers the loads that the grand resistance matrix gives for renumbered motions, in every mode.
* `SD.C18_grand_lubrication` (TwoSpheres): (grand resistance, lubrication table). With the table made by the two scripts from the near-field formulae, the numbering of the particles does not matter.

*Missing.* size ratios have to be tabulated (the lookup otherwise takes the nearest ratio); the two-sphere program is assumed to solve the mobility problem. Reciprocity is needed (C18_needs_reciprocity).

### C19 A lone sphere obeys Stokes' laws — proved

*Model.* The full pipeline for one sphere: far field, near field (self pair has no neighbour), solve.

*Method.* Explicit inverse of a diagonal matrix.

* `SD.C19_lone_sphere` (GrandResistance): A lone sphere of radius `a`: with or without the near field, the grand resistance matrix exists and gives the force `6 π mu a U`, the torque `8 π mu a³ O` and the stresslet `20/3 π mu a³ E`.

### C20 The near-field resistance matrix is symmetric, local and complete — proved

*Model.* `generate_R2Bexact_loop` and `generate_R2Bexact` over an arbitrary pair list, the scalar lookup with `isclose`.

*Method.* Loop invariant over the pair list: each entry is the sum of the direct and self contributions of the specification `systemNear`.

* `SD.C20_entry` (NearField): (entries). Every entry of the near-field matrix, in bead coordinates and units of the viscosity: a bead's own block is the sum over its neighbours, each once, and the block of two beads is the pair interaction if they are neighbours and zero otherwise (also if bead-bead interactions are switched off and both belong to dumbbells). The matrix is symmetric.
* `SD.C20_symmetric` (NearField): (symmetric), for the matrix that is returned: in dumbbell coordinates and with viscosity.
* `SD.C20_local` (NearField): (local). Two beads not closer than the cutoff have no near-field coupling.
* `SD.C20_self` (NearField): (complete). A bead's own block is the sum over exactly the other beads within the cutoff, with the unit vector pointing to that bead.
* `SD.C20_missing_ratio` (NearField): (missing ratio). If the size ratio of two neighbours is not in the table, no matrix is returned: the code reads outside an array.

### C21 Near-field tensors have the symmetries physics needs — proved

*Model.* The tensors of Jeffrey and Onishi built in `L1…L9`, `Af…Mf`, and the condensed rows.

*Method.* Algebra with a unit vector; the condensed forms are the components in the orthonormal basis.

* `SD.C21_symmetries` (NearField): (symmetries), for any table. The index pairs that are condensed are symmetric and traceless; the force-velocity and torque-rotation tensors are symmetric, the torque-velocity one antisymmetric, and the stresslet-strain one symmetric under exchange of the pairs.
* `SD.C21_condensed` (NearField): (condensed blocks). Acting with the condensed blocks on the five components of a symmetric traceless rate of strain is acting with the full tensors on the matrix.

### C22 Table lookup is exact at nodes, monotone-safe between and clamped outside — proved

*Model.* `XYZ` with `np.interp` over an arbitrary sorted grid.

*Method.* Induction on the grid: nodes, convex combinations, clamping.

* `SD.C22_interp` (NearField): (interpolation). For strictly increasing nodes: the tabulated value at a node, the straight line between neighbouring nodes, the first value at or below the first node and the last one at or above the last node.
* `SD.C22_ratio` (NearField): (size ratio). The column of the table that is read is the first one whose ratio agrees with the given one within the tolerance; the lookup fails only if there is none.

### C23 Neighbour search (non-periodic) finds exactly the close pairs — proved

*Model.* `close_particles` without a box.

*Method.* `np.where` on the upper triangle as a filtered list of pairs.

* `SD.C23_neighbours` (NearField): What the neighbour search lists: the pairs `i ≤ j` closer than twice the cutoff factor (in units of the mean radius), with the scaled displacement from `i` to `j`, the scaled distance and the size ratio; each pair once, in row order; each particle paired with itself.

### C24 Neighbour search (periodic) uses lattice images correctly — proved

*Model.* `close_particles` with a sheared box: lattice coordinates, folding, the two radius tests.

*Method.* `Int.fract` in lattice coordinates. The property as proved says which image is used and exactly which pairs are returned; the two refutations show where this differs from the nearest image.

* `SD.C24_periodic` (Periodic): In a box whose (folded) edge vectors are the rows of `B`, the search returns, row by row and each once, exactly the pairs `i ≤ j` for which the image `y` of particle `j` in the cell centred on particle `i` is within the cutoff, both as it is and in units of the mean radius. Displacement and distance are those of `y` in units of the mean radius.
* `SD.C24_degenerate` (Periodic): A singular box stops the program.
* `SD.C24_nearest_missed` (Periodic): (not the nearest image). The search only looks at the image in the cell, which in a sheared box need not be the nearest one. Here two unit spheres have images at a distance below the cutoff 4, at `(-2.85, 0, 2.5)` from one another, and the pair is not found.
* `SD.C24_large_missed` (Periodic): (large particles). The unscaled distance is tested first. So two spheres of radius 3 at a distance 4.5, that is 1.5 mean radii, overlapping, are not found with the cutoff 4.

### C25 Grand resistance matrix is what the mode says — proved

*Model.* `generate_grand_resistance_matrix`, every combination of switches.

*Method.* Case analysis; inverse existence from C12 and linear algebra.

* `SD.C25_near_field` (GrandResistance): (near field). With the near field switched on, the matrix is the sum of the far-field part, which is also returned for later use, and the near-field matrix; otherwise it is the far-field part.
* `SD.C25_far_field` (GrandResistance): (far field). Without the drag approximation, the far-field part is the inverse of the far-field mobility matrix of the configuration, or the matrix passed in if it is not to be regenerated.
* `SD.C25_drag` (GrandResistance): (drag). With the drag approximation, the far-field part is diagonal, with the radius, 4/3 and 10/9 of its cube for the spheres and twice the radius for the dumbbells, times the viscosity; it is positive for positive radii and viscosity. It does not depend on the matrix passed in.
* `SD.C25_symmetric` (GrandResistance): (symmetric). In every mode the matrix is symmetric, if the matrix passed in is (when it is used at all).
* `SD.C25_stops` (GrandResistance): (when it stops). The function fails exactly if the far-field matrix has to be inverted and has a null vector, or the near field is switched on and a size ratio is missing.

### C26 Cached far-field inverse is never stale beyond the advertised schedule — proved

*Model.* The frame loop as a state machine with the cached inverse in the state, for arbitrary dynamics and input functions.

*Method.* Invariant over frames: the cached inverse is that of the latest refresh frame.

* `SD.C26_schedule` (Cache): (schedule). In every frame of every run, the far-field inverse that is kept is that of the configuration at the start of the latest refresh frame, found with the inputs of that frame, and of no Runge-Kutta stage.
* `SD.C26_every_frame` (Cache): (refresh every frame). With the interval 1, the inverse is always that of the current configuration.
* `SD.C26_refresh` (Cache): (a refresh is a refresh). A stage that is told to find the inverse again uses the inverse for the configuration of that stage.
* `SD.C26_first_stage` (Cache): (first stage). The first stage of the frame is solved with exactly the inverse that is kept: being handed this inverse, and told to find no other, it gives the same result.
* `SD.C26_whole_frame` (Cache): (whole frame). Unless it is a refresh frame of a Runge-Kutta run that asks for a new inverse in every stage, the whole step is made with the inverse that is kept.

### C27 Position updates follow the advertised scheme — proved

*Model.* `euler_timestep`, `ab2_timestep`, the RK4 branch of `generate_frame` with its blends.

*Method.* Unfolding of one frame; exactness on polynomials; comparison with the classical schemes.

* `SD.C27_euler` (Step): (Euler). A frame of an Euler run, and the first frame of an Adams-Bashforth run, moves every sphere by its velocity (solved velocity plus background flow) times the time step.
* `SD.C27_euler_dumbbells` (Step): (Euler, dumbbells). In an open domain an Euler frame moves each bead of every dumbbell by its velocity times the time step.
* `SD.C27_ab2` (Step): (Adams-Bashforth). In an Adams-Bashforth run every frame after the first moves every sphere by the time step times 3/2 of its velocity minus 1/2 of its velocity in the frame before.
* `SD.C27_ab2_dumbbells` (Step): An Adams-Bashforth run with dumbbells stops in its first frame.
* `SD.C27_rk4` (Step): (Runge-Kutta). In an open domain a Runge-Kutta frame solves at its start, twice half a frame on and once a whole frame on, at the configurations reached with the velocities of the stage before, and moves every sphere by the mean of the four velocities with weights 1, 2, 2, 1. The inner stages find the inverse again only if the frame is a refresh frame and the settings ask for it in each stage. In all four the background flow is taken at the position at the start of the frame.
* `SD.C27_rk4_dumbbells` (Step): (Runge-Kutta, dumbbells). The same for the beads of the dumbbells, except that the second stage uses the strain of the first.
* `SD.C27_rk4_simpson` (Step): (Simpson). For velocities that depend on time only, the Runge-Kutta frame is Simpson's rule.
* `SD.C27_rk4_cubic` (Step): (exactness of Runge-Kutta). For velocities that are cubic polynomials of time, the displacement in a Runge-Kutta frame is the exact time integral.
* `SD.C27_ab2_linear` (Step): (exactness of Adams-Bashforth). For velocities that are linear in time, the displacement in an Adams-Bashforth frame after the first is the exact time integral.
* `SD.C27_rk4_steady_flow` (Step): (steady flow). A consequence of taking the background flow at the start of the frame: where the velocity of a sphere is a steady function `A` of its position, as for a force-free sphere carried by a steady linear flow, the Runge-Kutta frame is no better than an Euler frame.
* `SD.C27_rk4_not_classical` (Step): (not the classical scheme). A force-free sphere in a steady straining flow: the Runge-Kutta frame differs from the classical Runge-Kutta step for the flow.

### C28 Orientation update is a rigid rotation — proved

*Model.* `euler_timestep_rotation` with its arccos/arctan2 construction, and the AB2 version.

*Method.* Trigonometric identities; equality with Rodrigues' rotation formula.

* `SD.C28_rotation` (Motion): When no arrow has zero length, the Euler step turns every arrow about its sphere's angular velocity, right-handedly, through the angle `|Ω| dt`, and carries it along with the centre.
* `SD.C28_rotation_ab2` (Motion): The second-order step is the same with the extrapolated angular velocity.
* `SD.C28_rigid` (Motion): The two arrows of a sphere keep their lengths and the angle between them.
* `SD.C28_flow` (Motion): The specification of the rotation is the solution of `dv/dt = Ω × v`, so the step is exact for a constant angular velocity.
* `SD.C28_still` (Motion): With no angular velocity the arrows only move with the centre.
* `SD.C28_degenerate` (Motion): A sphere with an arrow of zero length stops the step.

### C29 Fully-2D mode keeps spheres in their plane — proved

*Model.* The y-velocity zeroing in `generate_frame`.

*Method.* Induction over frames.

* `SD.C29_fully_2d` (Step): In a two-dimensional run in an open domain no sphere ever leaves its plane, whatever the scheme.
* `SD.C29_not_dumbbells` (Step): (limit of the option). It does not hold dumbbells in their plane.

### C30 Periodic wrap lands in the cell and only moves by lattice vectors — proved

*Model.* `wrap_around` and `shear_basis_vectors`.

*Method.* Lattice coordinates and `Int.fract`; invertibility of the sheared basis.

* `SD.C30_folded_box` (Motion): A box with positive sides has exactly one folded box.
* `SD.C30_wrap` (Motion): The wrapped point lies in the cell of the folded box centred on the origin and differs from the original by an integer combination of the box vectors; it is the only such point.
* `SD.C30_images` (Motion): Points that differ by box vectors wrap to the same point.
* `SD.C30_idempotent` (Motion): Wrapping twice is wrapping once.
* `SD.C30_fixed` (Motion): Points already in the cell stay.
* `SD.C30_degenerate` (Motion): A degenerate box stops the program.
* `SD.C30_simple_shear` (Motion): Simple shear of any size, along one axis and growing along another: the folded box always spans space, and it generates the same lattice as the box that has been sheared without folding.
* `SD.C30_default` (Motion): With the default arguments (no rotation, the identity as strain) the box is not sheared.

### C31 The background flow is one affine field — proved

*Model.* The two background-flow functions.

*Method.* Algebra; the beads and the spheres see the same affine field.

* `SD.C31_spheres` (Motion): Spheres are advected by the affine field and spun by its angular velocity.
* `SD.C31_dumbbells` (Motion): Dumbbells are advected by the same affine field: adding the background flow to a dumbbell's mean and half-difference velocity adds the field at each bead to that bead's velocity.
* `SD.C31_tracer` (Motion): So a dumbbell whose two beads move with the flow stays a pair of tracers: its centre moves with the field at its centre and its displacement with the field's difference.

### C32 Shear inputs are pure shear with consistent integrals — proved

*Model.* `constant_shear`, `oscillatory_shear`.

*Method.* Algebra and `HasDerivAt` for the integrals.

* `SD.C32_constant` (Inputs): Constant shear: the flow is simple shear of the stated rate along x, growing along z, about the given centre, the strain is symmetric and traceless and given to every sphere (at least one copy), and the accumulated rotation and strain are simple shear of size rate times time.
* `SD.C32_constant_integral` (Inputs): Constant shear: the accumulated rotation and strain have the rates as time derivatives and start from zero.
* `SD.C32_oscillatory` (Inputs): Oscillatory shear with a nonzero period, looking along axis 1 or 2: the flow is simple shear in the requested plane with the rate `amplitude * ω * cos (ω t + phase)`, the strain is symmetric and traceless and given to every sphere, and the accumulated rotation and strain are simple shear of size `amplitude * sin (ω t + phase)`.
* `SD.C32_oscillatory_integral` (Inputs): Oscillatory shear: the accumulated rotation and strain have the rates as time derivatives.
* `SD.C32_oscillatory_stops` (Inputs): The flow exists for every frame exactly when the period is nonzero and the axis is 1 or 2.
* `SD.C32_opposite_ignored` (Inputs): A disagreement with its name: looking along axis 1 the flag `opposite_direction` does nothing.

### C33 Repulsion obeys Newton's third law and really repels — proved

*Model.* `repulsion_forces`: pair list, distance, accumulation in place.

*Method.* Induction on the pair list; antisymmetry of each step.

* `SD.C33_forces` (Inputs): Every sphere outside the lids gets, on top of its input force, the sum of the repulsions from all other beads; the lid spheres get nothing; a dumbbell's force gets the sum and its force difference the difference of the repulsions on its two beads.
* `SD.C33_total` (Inputs): With no lids the repulsion changes the total force on the suspension by nothing.
* `SD.C33_pair` (Inputs): The force between two beads: equal and opposite; along the line of centres; never attractive for a nonnegative strength; strictly repulsive, of the stated size, exactly when the beads are close and not coincident.

### C34 Explosion protection stops the run and stays stopped — proved

*Model.* `did_something_go_wrong_with_dumbells` and the flag in the frame loop.

*Method.* Case analysis and induction over frames.

* `SD.C34_flag` (Step): (the test). The flag is raised exactly if it was raised before or, with protection on, some dumbbell is longer than 5.
* `SD.C34_raised` (Step): (a frame raises the flag). With protection on, a frame after which some dumbbell is longer than 5 ends with the flag raised.
* `SD.C34_euler_iff` (Step): (Euler frames). In an Euler or Adams-Bashforth frame the flag is raised only by a dumbbell that is longer than 5 after the frame.
* `SD.C34_off` (Step): (no false alarm). With protection off, or without dumbbells, no frame raises the flag.
* `SD.C34_rk4_iff` (Step): (Runge-Kutta frames). In a Runge-Kutta frame the flag is raised exactly by a dumbbell that is longer than 5 after the frame or at one of the three inner stages.
* `SD.C34_latch` (Step): (latch). Once the flag is raised, the rest of the run changes nothing: positions, saved data, backup file, flag.

### C35 Saved file has exactly the promised frames — proved

*Model.* Saving in `generate_frame` and `finalSave`.

*Method.* Induction over frames with arbitrary dynamics.

* `SD.C35_saved` (Saving): The final file of a fresh run of `N` frames that saves every `n`-th configuration and every `m`-th force record from frame 0 on. Here `K` is the number of frames before the explosion protection stopped the run; without an explosion `K = N`. The file contains the configurations at the start of the frames `0, n, 2n, ...` below `K`, in order, then the final configuration if the last of the `N` frames was reached and is a saved frame, and the force records of the frames `0, m, 2m, ...` below `K`.
* `SD.C35_forces_euler` (Saving): (Euler forces). In an Euler or Adams-Bashforth frame the force record holds the forces and stresslets of the solution at the start of the frame.
* `SD.C35_count` (Saving): (number of entries). A run that reaches its end saves the start of one in `n` frames: the number of saved force records is the number of frames divided by the interval, rounded up.
* `SD.C35_positions_only` (Saving): (saving positions only). A fresh run that is told to save positions but no forces does not end with a file: the program fails when it comes to write it.

### C36 Backup file is always a usable prefix of the final data — proved

*Model.* `saveTemp`, `savez`, removal at the end.

*Method.* Induction over frames.

* `SD.C36_prefix` (Saving): (prefix). Whenever a fresh run is stopped, be it after any number `j` of frames, the backup file on disk is a prefix of the final file of the run continued to the end. The backup is removed only in the step that writes the final file.
* `SD.C36_removed` (Saving): (removal). If the backup file existed at the end of the frames and is gone at the end of the program, the final file has been written.
* `SD.C36_age` (Saving): (age). With backups switched on every `T` frames in a fresh run that saves from frame 0, the backup file after any number `k > 0` of frames exists and is what had been saved at the end of a frame at most `T` frames back, the latest frame divisible by `T`.

### C37 Resuming from a backup reproduces the uninterrupted run — partial

*Model.* `resume`: checkpoint override of the initial positions, then the same loop.

*Method.* Simulation of the two runs frame by frame.

* `SD.C37_resume_partial` (Resume): A run of `N` frames that saves every frame is killed after `j` frames and resumed from its backup `d`. If the backup was made before the last frame, the resumed run completes and its file agrees with the file of the uninterrupted run except that the last entry, the final configuration and the last force record, is missing. If the backup was made in the last frame, the two files agree. The full claim, that the two files always agree, is false: see `C37_last_entry_lost`. Besides, equality is shown for the positions (the rotations are reset on resuming), without a periodic box, for input functions that depend on the positions only: the frame counter of the resumed run is one ahead.
* `SD.C37_last_entry_lost` (Resume): fails: a lone sphere that moves with a constant velocity for ten frames, killed after seven frames and resumed from its backup of frame 4. The uninterrupted run saves eleven configurations and ten force records, the resumed run one fewer of each.

*Missing.* the files agree except for the last entry, which the resumed run loses (C37_last_entry_lost); equality is of positions and forces (rotations are reset on resuming), without a periodic box, for input functions of the positions only, with every frame saved.

### C38 Command-line arguments override the right settings — partial

*Model.* The argument parsing of `settings.py`.

*Method.* Case analysis on the argument list.

* `SD.C38_overrides_partial` (Startup): for the first five settings. The settings of a run: each argument that is given replaces its own setting, each omitted one leaves the default. Missing: the sixth argument, which is read (`C38_sixth_read`) but then lost (`C38_sixth_lost`).
* `SD.C38_malformed` (Startup): (malformed numbers). The program stops with the usage error exactly when one of the four numbers is given but is not a number.
* `SD.C38_sixth_read` (Startup): (sixth argument, as read). The force-extraction flag is first set by the sixth argument.
* `SD.C38_sixth_lost` (Startup): fails for the sixth argument: whatever is given, the run does not extract forces.
* `SD.C38_integers` (Startup): (well-formed numbers). Every whole number, written in decimals, is read as that number.
* `SD.C38_not_integers` (Startup): (malformed numbers, continued). Text with a character that is not a digit, a sign, an underscore or a space is not a whole number: for instance `1.5`, `1e3` or `fte`.

*Missing.* the sixth argument: refuted (C38_sixth_lost).

### C39 Start-up validation rejects impossible particle/input-form combinations — partial

*Model.* The start-up checks of `run_simulation.py` with `np.isclose`.

*Method.* Exact characterisation, then comparison with the lookup.

* `SD.C39_starts_iff` (Startup): A run starts exactly when: without spheres the form is `fts` or a dumbbell-only form; with spheres it is not a dumbbell-only form; the input is known; and every ratio of two sphere sizes is within the tolerance of an entry of the table.
* `SD.C39_lookup_partial` (Startup): (lookups), with a margin. If every ratio of two sphere sizes is in the table to a relative accuracy of 9.99e-6, the run starts (given a suitable form) and the near-field matrix of any configuration of spheres of those sizes is found. Missing: ratios at the very edge of the tolerance, which start-up accepts and the lookup does not find (`C39_edge`).
* `SD.C39_edge` (Startup): fails at the edge of the tolerance: with the ratios shipped with the code, a run with two spheres starts although the ratio of their sizes cannot be looked up.
* `SD.C39_dumbbells_unchecked` (Startup): says nothing about dumbbells: a run starts although the ratio of a sphere and a bead is not in the table, and then there is no near-field matrix.

*Missing.* the check does not imply that the lookup succeeds: refuted for dumbbells and at the edge of the tolerance.

### C40 The size-ratio table is closed under swapping the two particles — partial

*Model.* `lam_range_with_reciprocals` and the lookup.

*Method.* List membership; monotonicity of the tolerance.

* `SD.C40_table` (Startup): The table for any list of positive tabulated ratios: it is in ascending order, it contains exactly the tabulated ratios and their reciprocals, and every entry occurs once, or as often as it was tabulated.
* `SD.C40_closed` (Startup): (closed). A ratio is in the table exactly when its reciprocal is.
* `SD.C40_swap_partial` (Startup): (lookups), with a margin. If the ratio of the sizes `a`, `b` is in the table to a relative accuracy of 9.9e-6, both `(a, b)` and `(b, a)` are found. Missing: ratios at the very edge of the tolerance (1e-5 and a bit), where only one of the two may be found (`C40_edge`).
* `SD.C40_edge` (Startup): fails at the edge of the tolerance: with the ratios shipped with the code, there are two sizes for which `(a, b)` is found and `(b, a)` is not.

*Missing.* invariance under swapping at the edge of the tolerance: refuted (C40_edge).

### C41 Random sphere placement never overlaps and stays in the box — proved

*Model.* `randomise_spheres` with fuel over an arbitrary stream in [0,1).

*Method.* Loop invariant; for C41_every an explicit stream reaches every valid placement.

* `SD.C41_valid` (Placement): Whatever numbers are drawn, a placement that finishes gives one sphere for each requested size, with its centre in the box, overlapping neither another new sphere nor an old one.
* `SD.C41_definite` (Placement): (the bound on rounds is harmless). Once a placement stops, allowing more rounds gives the same outcome.
* `SD.C41_missing_position` (Placement): (error branch). If an existing sphere has a size but no position, placement stops with an exception rather than ignoring that sphere.
* `SD.C41_single` (Placement): (error branch). Asking for one sphere never succeeds: the statistic printed afterwards takes the minimum over the distances between new spheres, of which there are none.
* `SD.C41_full_box` (Placement): (no guarantee of stopping). If every point of the box is too close to an existing sphere, the loop runs for ever.
* `SD.C41_every` (Placement): (nothing is excluded). Every placement of at least two distinct spheres that is valid, with the centres off the top faces of the box, is the outcome for some draws.
* `SD.C41_setup5` (Placement): (the shipped random setup). In position setup 5 all 41 centres lie in the plane `y = 0`, each unit sphere is inside the square of side 16.2, and no two of them overlap.

### C42 Random dumbbell placement never overlaps and has the right lengths — proved

*Model.* `randomise_dumbbells` likewise.

*Method.* Loop invariant.

* `SD.C42_valid` (Placement): Whatever numbers are drawn, a placement that finishes gives one dumbbell for each requested size; its beads are in the box and at the requested separation, in the requested direction where one is given; beads of different dumbbells do not overlap, and no bead overlaps a sphere.
* `SD.C42_definite` (Placement): (the bound on rounds is harmless).
* `SD.C42_missing_position` (Placement): (error branch). If a sphere has a size but no position, placement of at least one dumbbell stops with an exception rather than ignoring that sphere.
* `SD.C42_own_beads` (Placement): (the two beads of one dumbbell are not checked). They overlap exactly when the requested separation is less than two bead radii.
* `SD.C42_setup6` (Placement): (the shipped random setup). In position setup 6 the wall spheres are not passed to the placement, yet no bead can overlap a wall: the box keeps every bead clear of them.

### C43 Time-left estimate and time formatting are sane — partial

*Model.* `calculate_time_left`, `format_elapsed_time`, `format_seconds` with Python digit printing.

*Method.* Arithmetic of `divmod`; averages over frame lists.

* `SD.C43_bounds` (Time): The estimate lies between the shortest and the longest frame time so far, for every frame left, with the allowance of three per cent.
* `SD.C43_last` (Time): On the last frame (and after) nothing is left.
* `SD.C43_exact` (Time): When the frames that invert the mobility matrix took `A` each and the others `B`, and both kinds have been seen since the first frame, the estimate is the sum of these over the frames left, plus three per cent. The time of the first frame does not matter when compilation is on.
* `SD.C43_format_days` (Time): A day or more: days, then hours, minutes and seconds, all two places wide, which read as numbers below 24, 60 and 60 and together make up the whole seconds of the duration.
* `SD.C43_format_hours` (Time): An hour or more but less than a day.
* `SD.C43_format_minutes` (Time): A minute or more but less than an hour.
* `SD.C43_format_seconds_partial` (Time): Less than a minute: seconds to the nearest tenth, seven places wide. Partial: the seconds stay below 60 except that they reach 60.0 just below a minute (`C43_sixty_seconds`).
* `SD.C43_sixty_seconds` (Time): The one place where a field can reach 60: durations just below a minute are shown as sixty seconds.
* `SD.C43_format_hms` (Time): The format of the scalar scripts: hours, minutes and seconds.

*Missing.* seconds just below a minute print as 60.0 (C43_sixty_seconds).

### C44 Precomputed scalars are read back by the same convention they are written — proved

*Model.* The subtract script, the near-field tensors and the grand resistance matrix of two spheres.

*Method.* Matrix entries of the tensors at the reference orientation identify every scalar. For two spheres in general position the far-field matrix is turned to the reference axis (C56) and rescaled (C55).

* `SD.C44_read_back` (Scalars): (read back). For two spheres of any sizes on the first axis, at any scaled distance `s` within the cutoff: reading the 22 scalars off the simulation's near-field matrix gives back the tabulated scalars it was built from, times the viscosity.
* `SD.C44_round_trip` (Scalars): (round trip). For a table made by the script from the scalars `T`, and two spheres at a tabulated scaled distance and size ratio (within the cutoff): the grand resistance matrix of the simulation, far field plus near field, has exactly the scalars `T` one started from. So the far field, which the script subtracts and the simulation adds, is neither counted twice nor lost.
* `SD.C44_two_spheres` (TwoSpheres): (two spheres). For a table `T'` made by the script from the table `T`, and any two spheres, in any position and of any sizes, whose size ratio and scaled distance are tabulated: every entry of the grand resistance matrix, far field plus near field, is the one given by the scalars of the original table `T`: `l` and `l'` are the columns of the two size ratios and `n` is the row of the distance.

### C45 Mobility scalars convert to resistance scalars by true inversion — proved

*Model.* `generate_scalars_midfield.py` after the Fortran call.

*Method.* Block inversion in each azimuthal mode, proved against the two-sphere mobility relation of `Spec/TwoSphere`.

* `SD.C45_inverse` (Midfield): The midfield conversion inverts the two-sphere problem: if it succeeds, then for every axis, the forces, torques, strain rates, velocities, angular velocities and stresslets that satisfy the mobility relation with the given scalars are exactly those that satisfy the resistance relation with the converted scalars. The given scalars must obey the reciprocal theorem in three places.
* `SD.C45_decode` (Midfield): (decoding). If the Fortran program solves the mobility problem with the scalars `z`, then the 44 numbers the script picks from its 14 answers are exactly `z`.
* `SD.C45_fails` (Midfield): (failure). The conversion stops exactly if one of the three matrices is singular.
* `SD.C45_ignored` (Midfield): (ignored entries). `y21a` and `y21c` are never read: with scalars that violate the reciprocal theorem the result cannot be the inverse.
* `SD.C45_balanced` (MidfieldTable): (reciprocity). The conversion keeps the reciprocal theorem.
* `SD.C45_table` (MidfieldTable): (table). Suppose the Fortran program solves the mobility problem with scalars `z` that obey the reciprocal theorem, for spheres of radius 1 and `lam`. Then the near-field formulas of the simulation, with the table column for `lam` seen from the first sphere and the column for `1 / lam` seen from the second, turn the velocities, angular velocities and strain rates of any solution of the mobility problem, about any axis, into its forces, torques and stresslets.
* `SD.C45_reciprocal` (MidfieldTable): (reciprocal columns). The columns for `lam` and `1 / lam` obey the reciprocal theorem that the symmetry of the simulation's near-field matrix rests on.

### C46 Near-field scalar formulas are consistent — proved

*Model.* All functions of `functions_nearfield.py`: series coefficients with arbitrary truncation, singular parts, table rows.

*Method.* Summation by symmetry in λ → 1/λ; limits as the gap closes; identities for rigid motion and linear flow between singular parts.

* `SD.C46_reciprocal` (Lubrication): (reciprocity). The functions for the neighbour's motion that the near-field script tabulates, with their series cut off where the script cuts them off, obey the reciprocal theorem exactly, for all sizes and all gaps.
* `SD.C46_linear_flow` (LubricationFlow): (rigid motion and linear flow). Two spheres of any sizes are held still in a linear flow, or move as one rigid body through it: every force, torque and stresslet the near-field functions give has a finite limit as the gap closes. The terms in `1 / xi` and `log xi` cancel between the two spheres.
* `SD.C46_smooth` (LubricationFlow): (slopes). The `xi log xi` terms cancel too, so that these limits are approached with a finite slope: for forces and torques in every linear flow, and for stresslets in every linear flow whose strain does not shear the pair across its axis, which includes rigid motion.
* `SD.C46_rough` (LubricationFlow): (a coefficient that does not fit). For spheres of any sizes whose axis is sheared, the `xi log xi` terms of the stresslets do not cancel: the coefficients `G3ym` and `G6ym` do not fit the others.
* `SD.C46_approach` (LubricationFlow): (approach). Sphere 1 moves with velocity `U` and its neighbour is held. Times the width of the gap, the force tends to that of lubrication theory, `6 π (a b / (a + b)) ^ 2`, along the axis.
* `SD.C46_shearing` (LubricationFlow): (shearing). If `U` is across the axis, the force grows as the logarithm of the gap, with the coefficient of lubrication theory.
* `SD.C46_nodes` (LubricationTable): (table). At each tabulated distance and size ratio, the simulation reads from the near-field table the functions it is named after.
* `SD.C46_columns` (LubricationTable): (reciprocal table). The columns of the near-field table for the ratios `b / a` and `a / b` obey the reciprocal theorem at every distance, tabulated or not.
* `SD.C46_lookup` (LubricationTable): (lookups in the table). For spheres whose size ratio was asked for, either way round, the scalars looked up for the pair `(a, b)` and for `(b, a)` obey the reciprocal theorem, if no two of the tabulated ratios are so close that the lookup could confuse them.

### C47 Correct scalar file for the chosen mode — partial

*Model.* File choice in `data.py`.

*Method.* Case analysis.

* `SD.C47_right_table_partial` (Startup): as far as it holds: without the drag-only far field the right table (full subtraction) is used whatever the other switch says, and with it the wrong table is used. Missing: with the drag-only far field the choice is inverted, so the claim is false there (`C47_inverted`).
* `SD.C47_inverted` (Startup): fails with the drag-only far field: the drag-only table is used exactly when it is not asked for.
* `SD.C47_missing` (Startup): (missing file). If only the table with full subtraction is there, as in the distributed code, then the scalars cannot be loaded exactly with the drag-only far field and the other switch off.

*Missing.* the choice is inverted for the drag form (C47_inverted).

### C48 Far-field entries are the multipole response of one particle to another — proved

*Model.* `generate_Minfinity` again.

*Method.* The entries are identified with Faxén responses to multipole flows written directly from the Oseen tensor by differentiation.

* `SD.C48_entry` (FarField): Every entry of the far-field mobility matrix in bead coordinates: for a bead's own block Stokes' and Einstein's mobilities, and for two distinct beads exactly the motion Faxén's laws give one of them in the multipole flow of the other one (at the separation of `sep`). Every row of the matrix is the row of exactly one component of one bead.
* `SD.C48_rows` (FarField): (rows). The rows are numbered without gap or overlap.

### C49 Dilute suspensions are always solvable — proved

*Model.* The whole far field and the grand resistance matrix for dilute configurations.

*Method.* Diagonal dominance bounds on the off-diagonal blocks; positive definiteness of the far field and of R.

* `SD.C49_mobility` (Dilute): (mobility). In a dilute suspension of spheres and dumbbells of any sizes, whatever loads act, the far-field mobility matrix that is returned dissipates energy: it is positive definite.
* `SD.C49_inverse` (Dilute): (inverse). So the inversion succeeds, and the far-field resistance is positive definite.
* `SD.C49_drag` (Dilute): (drag). With the drag approximation the far-field resistance is positive definite for every configuration.
* `SD.C49_solvable` (Dilute): (solvable). For a dilute suspension whose particles have no near-field neighbours (or with the near field switched off) the resistance matrix exists, is symmetric and positive definite, and every complete input of every allowed form is solved: no inversion on the way meets a singular matrix.

### C50 Periodic kernels are the derivatives they claim to be — proved

*Model.* All kernels of `generate_Minfinity_periodic.py`, with erfc as an integral.

*Method.* A calculus of radial functions: each closed form is matched with a differentiation rule, order by order.

* `SD.C50_erfc_derivatives` (EwaldKernels): The seven numbers of `generate_erfcs` are the derivatives of `s ↦ erfc(lamb s)` of orders 0 to 6.
* `SD.C50_kernels` (EwaldKernels): `J` and its five companions in the code are the screened Green's function, its first and second derivatives, its Laplacian, and the first and second derivatives of its Laplacian.
* `SD.C50_multipoles` (EwaldKernels): The derived tensors: `R` and `K` are the flows of a point torque and stresslet, `Lap_R` and `Lap_K` the same for the Laplacian, `D_R`, `D_K` and `DLap_K` their gradients.
* `SD.C50_incompressible` (EwaldKernels): The flow through the screened tensor is incompressible: the divergence the code's `D_J` gives vanishes, and so does that of every wave.
* `SD.C50_unscreened` (EwaldKernels): Without screening the real-space tensor is that of unbounded fluid.
* `SD.C50_waves` (EwaldKernels): The wave-space tensor is the transverse projection with the strength of the smooth part, and its companions are what differentiation makes of the wave.

### C51 Periodic pair blocks are the response through the Green's function of the box — partial

*Model.* `M11` … `M33` for distinct particles over arbitrary finite image and wave lists.

*Method.* The derivatives of the sums are the sums of C50; Faxén coefficients compared by algebra.

* `SD.C51_open_space` (EwaldPair): The specification used below agrees, in unbounded fluid, with the Faxén response of the open far field.
* `SD.C51_force_force` (EwaldPair): Force on one sphere, velocity of another: the Faxén response through the Green's function of the box.
* `SD.C51_torque_torque` (EwaldPair): Torque on one sphere, angular velocity of another.
* `SD.C51_stress_stress` (EwaldPair): Stress on one sphere, rate of strain of another.
* `SD.C51_torque_stress_partial` (EwaldPair): Stress on one sphere, angular velocity of another: the response to a sphere of `√(5/3)` times the radius. The code multiplies the Laplacian by `a2²/6` where Faxén's law has `a2²/10`. Missing: agreement for the radius `a2`; see `C51_torque_stress_defect` for the difference.
* `SD.C51_torque_stress_defect` (EwaldPair): The difference from Faxén's law is `a2²/15` times the response through the Laplacian of the Green's function.
* `SD.C51_force_torque_partial` (EwaldPair): Torque on one sphere, velocity of another: only the images are summed. Missing: the waves, which do not vanish; see `C51_force_torque_waves`.
* `SD.C51_force_stress_partial` (EwaldPair): Stress on one sphere, velocity of another: only the images are summed. Missing: the waves, which do not vanish; see `C51_force_stress_waves`.
* `SD.C51_force_torque_defect` (EwaldPair): What the code leaves out of the velocity due to a torque is the sum over waves.
* `SD.C51_force_stress_defect` (EwaldPair): What the code leaves out of the velocity due to a stress is the sum over waves.
* `SD.C51_force_torque_waves` (EwaldPair): The waves left out do not vanish. In any cubic box, for spheres a little way apart along one edge and small compared with the box, they add a positive amount to the sideways velocity due to a torque.
* `SD.C51_force_stress_waves` (EwaldPair): The same for the velocity due to a stress.
* `SD.C51_force_torque_wrong` (EwaldPair): For these spheres the code's coupling of torque and velocity is not the response in the box.
* `SD.C51_force_stress_wrong` (EwaldPair): For smaller spheres the code's coupling of stress and velocity is not the response in the box.

*Missing.* `M12` and `M13` have no wave sum (refuted: C51_force_torque_wrong, C51_force_stress_wrong, and for every cube C51_force_torque_waves, C51_force_stress_waves); `M23` has `a2²/6` for `a2²/10` in front of a Laplacian term.

### C52 Periodic self blocks are an isolated sphere plus its images — partial

*Model.* `M11` … `M33` for a particle with itself.

*Method.* The smooth part of the own image is extended analytically to zero separation and its limit taken; odd terms cancel by symmetry of the lattice.

* `SD.C52_force_force` (EwaldSelf): Force and velocity of one particle.
* `SD.C52_stress_stress` (EwaldSelf): Stress and rate of strain of one particle.
* `SD.C52_torque_torque_partial` (EwaldSelf): Torque and angular velocity of one particle: the code leaves out a constant. Missing: equality without the last term, which fails by `C52_torque_torque_wrong`.
* `SD.C52_torque_torque_wrong` (EwaldSelf): The angular velocity of a particle under a torque is therefore too large, by a fixed fraction `40 pi/(3 L^3)` of `1/(8 pi mu)`.
* `SD.C52_torque_stress_partial` (EwaldSelf): Stress and angular velocity of one particle, for a stress carried by a sphere of `√(5/3)` times the radius (compare `C51_torque_stress_partial`). Missing: the radius itself.
* `SD.C52_no_self_coupling` (EwaldSelf): Torques and stresses give a particle no velocity through its own images, if the images are symmetric; the code has zero there.
* `SD.C52_box_proper` (EwaldSelf): The lattice of every box in simple shear of any size (or at rest) meets the conditions above.
* `SD.C52_cube_torque_wrong` (EwaldSelf): In a cube of edge 10 the angular velocity of a unit sphere under a torque is too large.

*Missing.* the torque–torque block lacks the constant of the own smooth part (refuted: C52_torque_torque_wrong, C52_cube_torque_wrong); torque–stress as in C51.

### C53 Images and waves belong to the sheared box — partial

*Model.* `boxLattice`: grid points, folded basis, reciprocal basis, cut-offs.

*Method.* List membership; determinants; periodicity of the cosine.

* `SD.C53_images` (EwaldBox): The images are the integer combinations of the edges of the folded box, with coefficients up to `n`, no longer than `1.4142 n L`.
* `SD.C53_images_once` (EwaldBox): No image is counted twice.
* `SD.C53_waves_periodic` (EwaldBox): The waves have the period of the box: if the folded box has the volume of the original one, the phase of a wave changes by whole turns along every lattice vector.
* `SD.C53_wave_sum_periodic` (EwaldBox): Hence the sum over waves has the period of the box.
* `SD.C53_shear_volume` (EwaldBox): In simple shear of any size the folded box has the volume of the original one.
* `SD.C53_symmetric` (EwaldBox): Both sums treat opposite directions alike.
* `SD.C53_cube_waves_partial` (EwaldBox): In a cube the waves are the vectors `2 pi/L` times a grid vector, with the same cut-off as the images, so the two sums respect the symmetry of the cube. Missing: the same in other boxes, where it fails; see `C53_lopsided`.
* `SD.C53_lopsided` (EwaldBox): In a long box the cut-off of the waves does not respect the symmetry of the box: the cut-off uses the lengths of the images, but the wave vectors are listed in another order. In a box of sides 8, 1, 1 the wave along the third axis is included and the equally long wave along the second is not.

*Missing.* all parts are proved except that the cut-off keeps the symmetry of the box, which holds in cubes (C53_cube_waves_partial) and is refuted for long boxes (C53_lopsided).

### C54 Every entry of the periodic far-field matrix is the response it stands for — partial

*Model.* The pair loop and the change of coordinates of `generate_Minfinity_periodic`.

*Method.* Each entry of the loop is traced to the block that wrote it; blocks by C51 and C52; reciprocity of the Green's function for the symmetrised half.

* `SD.C54_force_force` (EwaldMatrix): (velocity and force). For any two distinct beads that interact, the velocity of one due to a force on the other is the Faxén response through the Green's function of the box.
* `SD.C54_torque_torque` (EwaldMatrix): (angular velocity and torque, rate of strain and stress). The same for two spheres.
* `SD.C54_stress_stress` (EwaldMatrix): (rate of strain and stress).
* `SD.C54_velocity_partial` (EwaldMatrix): (velocity and torque or stress, between spheres), partial: through the real-space half of the Green's function only. Missing: the waves (see `C51_force_torque_waves`, `C51_force_stress_waves`).
* `SD.C54_torque_stress_partial` (EwaldMatrix): (angular velocity and stress), partial: for a stress carried by a sphere of `√(5/3)` times the radius. Missing: the radius itself (see `C51_torque_stress_defect`).
* `SD.C54_sphere_bead_partial` (EwaldMatrix): (sphere and bead), partial: the angular velocity or rate of strain of a sphere due to a force on a bead is computed with the two radii exchanged, and without the waves. Missing: unequal radii (see `C54_sphere_bead_wrong`) and the waves.
* `SD.C54_switch` (EwaldMatrix): (switch). With bead-bead interactions off, beads of different dumbbells do not interact; beads of the same dumbbell still do. (The open code drops those too, see `C48_entry`.)
* `SD.C54_own` (EwaldMatrix): (a particle's own block). The velocity of a bead due to its own force, and the rate of strain of a sphere due to its own stress, are those of an isolated sphere plus what its images add. A sphere's own torque and stress do not move it, and its images add nothing to that.
* `SD.C54_own_torque_partial` (EwaldMatrix): (a sphere's own torque), partial: too much by a constant. Missing: equality without the last term (see `C52_torque_torque_wrong`).
* `SD.C54_own_torque_stress_partial` (EwaldMatrix): (a sphere's own stress and angular velocity), partial: for a stress carried by a sphere of `√(5/3)` times the radius. Missing: the radius itself.
* `SD.C54_viscosity` (EwaldMatrix): (viscosity). Multiplying the viscosity by `k` divides the matrix by `k`.
* `SD.C54_symmetric` (EwaldMatrix): (symmetry and size), in bead coordinates and in the coordinates that are returned.
* `SD.C54_translation` (EwaldMatrix): (translation). Moving every particle by the same vector changes nothing.
* `SD.C54_dumbbell_coordinates` (EwaldMatrix): (dumbbell coordinates). The matrix returned acts on dumbbell forces and gives dumbbell velocities exactly as the bead-coordinate matrix acts on bead forces and gives bead velocities.
* `SD.C54_sphere_bead_wrong` (EwaldMatrix): (sphere and bead of different sizes: wrong). In every cube, for every sphere and bead of different radii whose displacement is along an edge and short compared with the box, the rate of strain of the sphere due to a force on the bead is not the Faxén response, even when the waves are left out.
* `SD.C54_sphere_bead_example` (EwaldMatrix): In a large enough cube the sphere and the bead show the defect.

*Missing.* besides the block defects of C51 and C52: sphere–bead blocks use the two radii exchanged (refuted for unequal radii in every cube: C54_sphere_bead_wrong), and the switch leaves the two beads of one dumbbell interacting (C54_switch).

### C55 The results do not depend on the unit of length — proved

*Model.* The generators of C12, C20 and C25 for a configuration with all lengths multiplied.

*Method.* Derivatives of the Oseen tensor and the lubrication tensors are homogeneous (`Lemmas/Units`); a change acts on grand vectors bead by bead and passes through products, inverses and the change to dumbbell coordinates (`Lemmas/Covariance`, `CovarianceGrand`). Both configurations have to be sensible: the specification of C48 keeps centres more than 1e-8 apart, an absolute length, because of the tolerance 1e-10 in the code.

* `SD.C55_farfield` (Covariance): (far field). If all lengths are multiplied by `k`, torques and stresslets by `k` and forces by 1, then the far-field mobility matrix gives velocities divided by `k`, and angular velocities and rates of strain divided by `k²`.
* `SD.C55_nearfield` (Covariance): (near field). The lubrication corrections scale in the same way; the scalar tables are dimensionless and the same pairs are close.
* `SD.C55_grand` (Covariance): (grand resistance). In every mode (drag approximation, far field only, far field kept from an earlier frame), the grand resistance matrix and the far-field part of the rescaled configuration exist and give the rescaled loads. A far-field matrix kept from an earlier frame has to be that of a rescaled configuration, too.

### C56 The results do not depend on the choice of axes — proved

*Model.* The generators of C12, C20 and C25 for a turned configuration.

*Method.* Far field from C17; the lubrication tensors commute with rotations (`Lemmas/NearTurn`); then as C55.

* `SD.C56_nearfield` (Covariance): (near field). Turning (or reflecting) the configuration turns the lubrication corrections.
* `SD.C56_farfield` (Covariance): (far field), for the matrix that is returned: in dumbbell coordinates.
* `SD.C56_grand` (Covariance): (grand resistance). In every mode, the grand resistance matrix and the far-field part of the turned configuration exist and give the turned loads for turned motions.

### C57 The combined scalar table keeps every scalar beside its distance — partial

*Model.* `combine_scalars.py` as a function of the two tables (`Model/Tables`).

*Method.* Index arithmetic of the concatenation; sortedness and permutation lemmas for the distances; a concrete overlapping pair as counterexample.

* `SD.C57_aligned_partial` (ScalarTables): (partial: the full claim is that scalars and distances stay together for every pair of input tables; this needs all near-field distances to come first, see `C57_order`). If the distances of the two tables, one list after the other, ascend, then the combined table holds every row of both tables beside its distance.
* `SD.C57_order` (ScalarTables): (the order is needed). If two tables in which every scalar names its own distance are combined, and every scalar still stands beside its distance, then the distances of the two tables, one list after the other, ascend.
* `SD.C57_mixed` (ScalarTables): fails when a near-field distance lies above a midfield distance.

*Missing.* false when the ranges of distances overlap (C57_mixed). The script also stops with an AttributeError after writing the file.

### C58 The drag-only far field is a row of isolated spheres and matches the drag-only table — partial

*Model.* `subtract_R2Binfinitydrag_from_scalars.py` and drag mode of the grand resistance matrix.

*Method.* Cell by cell against the resistances of isolated spheres; the entry lemma for the near field then gives every entry of the grand matrix.

* `SD.C58_scripts` (ScalarTables): (scripts). The drag-only script takes off exactly the scalars of a sphere that has no neighbour, at every distance, on and between the tabulated ones, and for every size ratio.
* `SD.C58_grand_partial` (ScalarTables): (partial: the full claim is that in drag-only mode every sphere without neighbours obeys Stokes' laws, and every entry for two spheres is that of the original table; the code's drag matrix lacks the factor `6 π`, see `C58_no_stokes`). With the drag-only table, the grand resistance matrix of any number of spheres in drag-only mode is the near field of the original table, except that the drag of each sphere on itself is counted `1 / (6 π)` times instead of once, minus once for each neighbour.
* `SD.C58_no_stokes` (ScalarTables): fails: in drag-only mode a sphere of positive radius in a fluid of positive viscosity, without neighbours, feels less than Stokes' drag, in every component.

*Missing.* the full claim (isolated resistances) is false by a factor 6 pi on the diagonal (C58_no_stokes); the theorem states the entry the code produces. Spheres without dumbbells only.

### C59 Far-field mobility dissipates for every non-overlapping configuration — proved

*Model.* The whole far field (`generate_Minfinity` and its blocks) for configurations without overlap.

*Method.* Project every load on a direction: a sphere becomes an interval of half-length its radius, a force a constant on it, a torque or stresslet a linear function. The mobility of two separate spheres is the average over all directions of the overlap of the two projections across the direction (`Lemmas/PairIntegral`, `Overlap`: all nine pairs of loads, by averages of products of up to four components over the sphere, `Lemmas/Sphere`, `Zonal`, `Hat`), and the same formula at zero distance gives the mobility of one sphere. Hence the quadratic form is an integral of a square; it vanishes only if all loads do, since intervals with different left ends cannot cancel (`Lemmas/Overlapping`).

* `SD.C59_mobility` (Dissipation): (mobility). For any number of spheres and dumbbells of any sizes, none closer than 2.001 average radii, the far-field mobility matrix that is returned is positive definite. (The dumbbell beads must see each other.)
* `SD.C59_two_beads` (Dissipation): (two beads). Two spheres, or one dumbbell, may even overlap.
* `SD.C59_inverse` (Dissipation): (inverse). So the inversion succeeds, and the far-field resistance is positive definite.
* `SD.C59_solvable` (Dissipation): (solvable). With the near field switched off (or no near-field neighbours), every complete input of every allowed form is solved.
* `SD.C59_switch` (Dissipation): (switch). With the interaction of dumbbell beads switched off the matrix need not dissipate: for a sphere between the beads of two dumbbells, none overlapping, there are forces that gain energy.

*Missing.* beads closer than 2.001 average radii are covered only for two beads; the code then uses displacements that belong to no arrangement of the beads.

### C60 Near-field resistances never feed energy in, if every table row passes four small tests — proved

*Model.* The whole near field (`generate_R2Bexact`, the interpolation and the pair list) and the sum in `generate_grand_resistance_matrix`.

*Method.* The quadratic form of the near-field matrix is grouped by pairs of beads (`Lemmas/NearForm`); the power of one pair splits by symmetry about the line of centres into four forms (`Lemmas/NearDissipation`), each linear in the scalars, so that linear interpolation keeps them non-negative. Necessity: each kind of motion is realised by suitable motions of two spheres. Together with C59 the total is positive definite.

* `SD.C60_modes` (NearDissipation): (four kinds). The power of a pair is non-negative for all its motions exactly if it is for the four kinds of motion separately: along the line of centres, twisting about it, across it, and straining in the plane across it.
* `SD.C60_near` (NearDissipation): (near field). If the scalars read for every close pair do not feed energy into that pair, then the near-field matrix of the whole suspension is positive semidefinite, whichever way the bead-bead switch is set.
* `SD.C60_table` (NearDissipation): (table). A table whose rows satisfy the condition gives a positive semidefinite near-field matrix for every configuration, at every distance between and beyond the tabulated ones.
* `SD.C60_solvable` (NearDissipation): (grand). With such a table and beads that do not overlap the whole resistance matrix, near field included, is symmetric and positive definite, and every complete input of every allowed form is solved.
* `SD.C60_pair` (NearDissipation): (the condition is needed). For two spheres within reach of each other the near-field matrix is positive semidefinite only if their scalars meet the condition.
* `SD.C60_gain` (NearDissipation): (energy gain). The code does not check the condition: a table of ones gives two spheres a near-field matrix with a motion that gains energy.

*Missing.* whether the shipped table meets the condition is decided for equal beads in C85; for other sizes it does not (C87).

### C61 Prescribed loads and motions superpose, reverse and vanish together — proved

*Model.* `solveForm` (C05–C10): all five input forms of `generate_output_FTSUOE`.

*Method.* A rule makes the inputs of one problem from those of two, particle by particle (`Spec/Superpose`). The combined answer obeys the resistance relation and echoes the combined inputs; uniqueness (C09) makes it the answer the code returns (`Lemmas/SolveRule`).

* `SD.C61_superpose` (Superpose): (superposition). Two problems with the same particles held are solved by the code. Then `a` times the inputs of the first plus `b` times those of the second are solved too, and every force, torque, stresslet, velocity, angular velocity and rate of strain is `a` times the first plus `b` times the second.
* `SD.C61_reverse` (Superpose): (reversal). Reversing everything that is prescribed reverses everything that is computed.
* `SD.C61_rest` (Superpose): (rest). If everything that is prescribed is zero, in any form of input and with any particles held, nothing moves and no force acts.

### C62 The computed flows obey the reciprocal theorem and dissipate as little as they can — proved

*Model.* As C61. Power is the sum over particles of F·U + T·Ω + S:E and, for dumbbells, of total force times mean velocity plus force difference times half the velocity difference.

*Method.* Power is the product of grand vectors (C02, `Lemmas/Power`), hence the bilinear form of the resistance matrix; symmetry gives reciprocity, definiteness dissipation, and completing the square least dissipation.

* `SD.C62_reciprocal` (Power): (reciprocal theorem). Two problems about the same particles, in any two forms of input and with any particles held, are solved by the code. Then the loads of the first do as much work against the motions of the second as the loads of the second against the motions of the first.
* `SD.C62_dissipates` (Power): (dissipation). The loads never do negative work against the motions that go with them, and they do no work only if nothing moves at all.
* `SD.C62_least` (Power): (least dissipation). The code solves a problem in which every particle, in every way it can move, is either made to move or left free of load. Then any other motion of the same particles with those prescribed motions dissipates at least as much, and exactly as much only if it is the same motion.

*Missing.* that the matrix of a simulation is symmetric and positive definite is C25, C59 and C60.

### C63 Turned, reflected or enlarged problems have turned, reflected or enlarged answers — proved

*Model.* `solveForm` together with `generate_grand_resistance_matrix`.

*Method.* C56 and C55 for the matrices; symmetry and definiteness pass to the transformed matrix because products of loads and motions are preserved up to a factor (`Lemmas/SolveTurn`); then as C61.

* `SD.C63_turn` (SolveTurn): (axes). The grand resistance matrix of a configuration is built, in any mode, and a problem is solved with it, in any form of input and with any particles held. Then the matrix of the turned (or reflected) configuration can be built too, and solving the turned problem with it gives exactly the turned answer: forces and velocities turn as vectors, torques and angular velocities as axial vectors, stresslets and rates of strain as matrices.
* `SD.C63_enlarge` (SolveTurn): (units). In the same way: if all lengths are multiplied by `k`, given forces kept, given torques and stresslets multiplied by `k`, given velocities divided by `k` and given rates of strain by `k²`, then so are the computed ones, and angular velocities are divided by `k²`.

### C64 A whole simulation seen after a rigid motion is the moved simulation — proved

*Model.* `program`, `runFrames`, `generate_frame`, all three schemes, `generate_output_FTSUOE`, in an unbounded fluid. The two worlds are related by `MovedWorld`; the hypothesis that the first run meets only calm configurations is stated by watching its input function (`watched`).

*Method.* `C63_turn` for each stage, C12 and C56 for the cached inverse, positive definiteness from C59 and C60; each step function commutes with the motion; induction over frames (`Lemmas/Moved*`).

* `SD.C64_program` (Moved): (program). Let the input function of `W'` answer, at the moved configuration, with the moved answer of `W`. If the program of `W` runs through and meets only calm configurations, then the program of `W'`, started from the moved state, runs through too and its files are the moved files. The watch on the first program changes nothing.
* `SD.C64_frames` (Moved): (frames). The same for the state after any number of frames: positions, orientation arrows, the error flag, the velocities kept for the next frame and everything saved so far.
* `SD.C64_untouched` (Moved): (untouched). For inputs that are in order wherever the particles are, as long as no two beads come closer than 2.001 average radii, both programs run through, and the moved one saves the moved file.
* `SD.C64_shipped` (SymmetricRun): (shipped table). A simulation of beads of one size with the table of the project, the full far field and a fixed viscosity, and the moved simulation: as long as no two beads come closer than 2.001 radii, both programs run through, and the moved one saves the moved file.

*Missing.* Periodic boxes are excluded (the box has axes). Input functions that use the resistance matrix have to ignore it.

### C65 A run stops with an exception only when beads touch — proved

*Model.* The same functions; `Visits` lists the configurations at which a frame asks for inputs.

*Method.* C59 and C60 give the inverse and positive definiteness, C09 the solution in every form, C28 the rotations; induction over frames (`Lemmas/Progress`).

* `SD.C65_program` (Progress): (program). The program writes its file if all configurations that it visits are ready: no inversion, solution or rotation fails on the way, in any of the input forms, schemes and modes.
* `SD.C65_stops` (Progress): (why a run stops). With particles and inputs that are in order, from a start without touching beads, the program is stopped by an exception only in a frame in which two beads come closer than 2.001 average radii.
* `SD.C65_single` (Progress): (a single sphere). With one sphere and inputs that are in order the program always writes its file.

*Missing.* Settings outside `Runnable` (saving switched off or starting later) are treated in C35 and C36 instead.

### C66 Which of the project's own inputs can be simulated in which input form — proved

*Model.* `input_ftsuoe` with its seven branches and defaults (`Model/ShippedInputs`), then the same functions as C65.

*Method.* Case analysis over number and form on the placeholders each form reads; `C10` for the incomplete ones, C65 for the complete ones.

* `SD.C66_complete` (ShippedInputs): (complete). Whatever the configuration (for input 3 no dumbbell has length zero, and input 6 is for 99 spheres), an answer exists and is complete exactly for the numbers and forms of the table, except that dumbbells without spheres are also complete for other inputs.
* `SD.C66_stops` (ShippedInputs): (stops). A number and form that are not in the table end every program with an exception, in the first frame at the latest: whatever the particles (input 6 is for 99 spheres), the tables, the scheme, the settings and the files already there.
* `SD.C66_runs` (ShippedInputs): (runs). With a number and form of the table and no periodic box, the program is stopped by an exception only in a frame in which two beads come closer than 2.001 average radii.

*Missing.* Input 2 (gravity in a periodic box) is excluded from `C66_runs`, which is about an unbounded fluid. Input 6 is for 99 spheres, as its lists are.

### C67 Without loads nothing moves, and ignored loads are no loads — proved

*Model.* The same functions.

*Method.* `C61` at zero, then an invariant over stages and frames (`Lemmas/Still`).

* `SD.C67_still` (Still): (still). When nothing acts and the fluid is at rest, the program runs through, for every scheme, form of input and number of frames; every saved configuration, with its orientation arrows, is the first one, and every saved force and stresslet is zero.
* `SD.C67_velocities_ignored` (Still): (ignored velocities). A disagreement with its description: input 5 is to move half of the spheres to the left and the others to the right, but with the forms `fts` and `fte` these velocities are not read. All spheres stay where they are, in every frame and for every scheme.

### C68 The symmetries of the listed inputs, and the origin that fts keeps — proved

*Model.* The same functions as C64 and C66.

*Method.* The inputs of each number are turned one by one (`Lemmas/InputSymmetry`), then `C64_untouched`. For the origin: the stage is literally the same, only the background flow is evaluated elsewhere; a pair of falling spheres has a non-zero computed strain (`Lemmas/Origin`).

* `SD.C68_inputs` (InputSymmetry): (inputs). Asked about a configuration moved by a motion that keeps gravity, or the flow, or the direction of pulling, the project's input function answers with the moved values.
* `SD.C68_runs` (InputSymmetry): (runs). Two simulations with the same listed input, started from two configurations that differ by a motion that keeps what the input describes, save files that differ by that motion, as long as no two beads come closer than 2.001 average radii: positions, orientations, forces and stresslets, in every frame.
* `SD.C68_gravity` (InputSymmetry): (gravity). The motions that the gravity input keeps are exactly those that keep the vertical.
* `SD.C68_origin` (InputSymmetry): (origin). Prescribing forces and stresslets, the program adds to the velocity of a sphere what its own strain gives at its distance from the origin: moving the whole suspension by `t` changes the velocity of sphere `i` by `Eᵢ t`.
* `SD.C68_origin_matters` (InputSymmetry): (origin matters). Two equal spheres falling one above the other, forces and stresslets prescribed, far field only: moving both spheres by the same `t` changes the velocity of the lower one.

*Missing.* `C68_gravity` shows for gravity that no other motion is kept; for the other numbers only one direction is proved.

### C69 What the listed inputs do to the beads, and what becomes of the shear flow — proved

*Model.* The same functions as C66.

*Method.* The loads of each number are compared with forces given bead by bead (`Spec/ListedForces`). Without loads the force vector of `fts` is zero, hence all solved velocities and strains (`fts_zero`); the frames are then explicit steps along a linear flow (`C27`), and induction over the frames gives whole runs. The steps bring no two beads closer, so `C66_runs` excludes an early end.

* `SD.C69_weight` (ListedForces): (gravity). Inputs 1 and 2 give every sphere the weight one downwards and dumbbells none.
* `SD.C69_spring` (ListedForces): (springs). Input 3 joins the beads of every dumbbell by a spring of constant one half and length two: the two forces are opposite, and they vanish only at that length.
* `SD.C69_repulsion` (ListedForces): (repulsion). Input 4 pushes every bead away from all close beads with strength 50 and decay rate 20.
* `SD.C69_none` (ListedForces): (no load). Inputs 5 and 7 load no bead.
* `SD.C69_shear_turns` (ListedForces): (shear). With spheres and prescribed stresslets, the shear flow of input 7 carries every sphere and every bead like a rigid rotation: the strain asked for is not used.
* `SD.C69_spiral` (ListedForces): (whole runs). In the shear flow of input 7 with prescribed stresslets, a suspension with at least one sphere never deforms: after `j` error-free frames all spheres and beads have made `j` explicit steps along a rigid rotation, which turn the suspension as a whole and enlarge it in the plane of the flow by `1 + dt² / 4` per frame (for squared lengths).
* `SD.C69_endless` (ListedForces): (never touching). Because it only turns and grows, a suspension with spheres that starts without touching beads is simulated to the end in the shear flow of input 7 with prescribed stresslets, however many frames are asked for.
* `SD.C69_shear_dumbbells` (ListedForces): (dumbbells only). Without spheres the same input shears the suspension: after `j` error-free frames every bead is exactly where the flow `(z, 0, 0)` takes it in the time `j dt`.

*Missing.* Input 6 and the oscillating flow of input 3 are not treated; neither is the Adams-Bashforth scheme.

### C70 Points inside a polygon, and beads placed in a quadrilateral — proved

*Model.* `Model/Polygon`: the test edge by edge with the state of the Python loop (an unset `xinters` is an error), and the placement loop.

*Method.* The number of sides met by the ray is counted. In a convex polygon a level that is not the lowest crosses exactly two sides; an interior point lies strictly between the two crossings, an outside point does not (`Lemmas/Polygon`). The region is the convex hull of the corners.

* `SD.C70_inside` (Polygon): (inside). For every convex polygon, whichever way round its corners are listed, a point in the interior is found to be inside.
* `SD.C70_outside` (Polygon): (outside). A point that is neither inside nor on the boundary is found to be outside.
* `SD.C70_boundary` (Polygon): (on the boundary there is no rule to rely on). The middle of the right side of a square counts as inside, the middle of its left side as outside.
* `SD.C70_beads` (Polygon): (beads in a quadrilateral). Whatever numbers are drawn, the beads that the loop places are two for each size, in the plane and within the quadrilateral, overlapping neither each other (the two of one dumbbell included) nor a sphere.
* `SD.C70_never_returns` (Polygon): (defect). The function itself never returns: with enough rounds it ends in an exception.

*Missing.* Points on the boundary have no rule (`C70_boundary`). Non-convex polygons are not treated; the docstring asks for convex ones.

### C71 Random dumbbell placement in a periodic box — proved

*Model.* `Model/PlacementPeriodic`: every loop, the never reset count, the interactive prompt (as not returning), the move of the centre by `np.mod`.

*Method.* An accepted bead is clear of the nine nearest images (`countImages_ok`); beads lie within one dumbbell length of the box, so images two or more periods away are too far; moving centres by periods keeps all images (`apart_images`).

* `SD.C71_shape` (PlacementPeriodic): (shape). A placement that finishes gives one dumbbell for each requested size, with the requested separation and direction, and with its centre in the box as far as `x` and `z` are concerned.
* `SD.C71_apart` (PlacementPeriodic): (no overlaps). If the box is long enough, `2|dx| + a + b ≤ Dx` and likewise for `Dz`, then beads of different dumbbells do not overlap, in any of the infinitely many periodic images. (The height of the box only has to be less than the artificial period of a million.)
* `SD.C71_spheres` (PlacementPeriodic): (spheres). Beads overlap no image of a sphere whose centre is in the box.
* `SD.C71_one_try` (PlacementPeriodic): (a hundred tries are one). If a second bead is accepted, it is the first one proposed: the count of overlaps is not set back, so that after one failure the other ninety-nine cannot succeed.
* `SD.C71_one_try_open` (PlacementPeriodic): (the same in an open box). If the first orientation that keeps the second bead in the box makes it overlap something, none of the remaining tries succeeds.
* `SD.C71_flat` (PlacementPeriodic): (a flat box). In a box without height and with the dumbbells in its plane, all beads stay in that plane.
* `SD.C71_lost_height` (PlacementPeriodic): (defect: the height of the centre). The centre is moved by whole millions in `y`, not by box heights: a dumbbell whose centre is just below the bottom of the box ends up almost a million above it.
* `SD.C71_long` (PlacementPeriodic): (defect: long dumbbells). Only the neighbouring images are checked, which is not enough if the dumbbells are longer than half the box: two beads of radius 3/4 can be accepted at a distance of 1.
* `SD.C71_height_not_periodic` (PlacementPeriodic): (defect: images above and below). Images in `y` are not looked at: in a cube of side ten, with dumbbells short enough for `C71_apart`, a bead of radius 1 is accepted at a distance of 1/2 from the image of another.

*Missing.* The two beads of one dumbbell are not checked against each other or their own images (as in `C42_own_beads`). Pitch and volume fraction are only printed.

### C72 The listed position setups — proved

*Model.* `Model/Setups`: every branch of `pos_setup`, `simple_cubic_8`, `same_setup_as` for a given file content.

*Method.* Lists of points are compared pairwise by coordinates; random setups by C41 and C42; runs by C66; the first saved configuration by induction over frames.

* `SD.C72_apart` (Setups): (no overlaps). Every listed setup that is built from numbers, the two random ones included, has the listed numbers of particles, of radius 1 for spheres and 0.1 for beads of dumbbells, and no two beads overlap.
* `SD.C72_room` (Setups): (room). In setups 1 to 4 the beads are more than one and a half mean diameters apart, hence fit for the theorems about matrices and runs.
* `SD.C72_walls_touch` (Setups): (the walls of setups 6 and 7 touch in the sense of the code). Neighbouring spheres of a wall are at 2.00001 radii, below the 2.001 from which on the far field is exact: the code treats them as overlapping.
* `SD.C72_listed` (Setups): (which numbers are listed). A setup can be built exactly for the numbers from 1 to 8; this includes that the random placements of 5 and 6 can succeed.
* `SD.C72_lattice` (Setups): (a simple cubic array). The eight spheres and all their images in the box that goes with them are the points of one cubic lattice with half the side of the box as its spacing.
* `SD.C72_cubic_apart` (Setups): (density). With spheres of radius 1 no two of all these images overlap exactly if the side is at least four; setup 3 and input 2 use the side eight.
* `SD.C72_replay` (Setups): (starting again from a file). Setup 8 with the file of an earlier run has the particles of that run in their first positions. Radii are not in the file: they are 1 and 0.1 whatever they were, and the arrows are the default ones.
* `SD.C72_runs` (Setups): (setups and inputs together). A run that starts from one of the setups 1 to 4 with a dissipating table that has the size ratios needed, and with an input that works without a periodic box, can only stop early because two beads have come to touch.

*Missing.* The checkpoint override at module level is C37; the negative numbers of the tests are left out.

### C73 Two spheres move as the two-sphere solution says — proved

*Model.* No new model: the scripts of C45 and C57, the grand matrix of C05 and C25 and the solver of C09. The two-sphere program enters as any function that solves the mobility problem (`SolvesMobility`).

*Method.* The table entry is the two-sphere resistance (C45) in simulation units; the far field cancels what the subtraction script removed (C44); the resistance relation is equivalent to the mobility problem; positive power of every motion gives positive definiteness.

* `SD.C73_exact` (PairMotion): (exact). Let the two-sphere program, asked for the ratio `lam` and the distance `s`, solve the mobility problem with the scalars `z`. The table that the scripts make of this, and two spheres of that ratio at that distance, give a grand resistance matrix, and loads and motions obey it exactly if they solve the two-sphere mobility problem with `z`, in units of the larger radius and of the viscosity.
* `SD.C73_solver` (PairMotion): (solver). Whatever the solver returns for such spheres, in any of the input forms with spheres, keeps the prescribed values and moves as the two-sphere solution says.
* `SD.C73_solvable` (PairMotion): (solvable). If the two-sphere solution costs energy, the grand resistance matrix of such spheres is positive definite and the solver returns an answer for every complete input.

*Missing.* Exact real arithmetic; distances and ratios that are tabulated, where interpolation is exact. Between them see C05.

### C74 Feeding dumbbells from below — proved

*Model.* `Model/Feed`: `feed_particles_from_bottom` up to the line that raises; sorting is any function that sorts by height.

*Method.* Lengths of the parts of the list; heights by folds of `max` and `min`.

* `SD.C74_completes` (Feed): (when). The list of beads is made exactly if there is the reference sphere, the file has a frame with dumbbells, the sphere is below the middle height of the beads, and the lowest bead is not too high above it.
* `SD.C74_beads` (Feed): (beads). The list of beads made is that of a suspension fed from the first frame of the file.
* `SD.C74_clear` (Feed): (clear). Every bead that was not there before is level with or below the lowest old bead, and does not touch the beads that stayed.
* `SD.C74_returns` (Feed): (never returns). The function gives back the suspension it was given in frames in which nothing is to be fed, and raises in all the others.

*Missing.* The call in a run is inside a string, so no run feeds; the lines after the exception are not modelled.

### C75 Near field in a periodic box — proved

*Model.* `Model/R2BPeriodic` (`generate_R2Bexact` with the periodic pair list); spec `Spec/PeriodicNear`: the image in the centred cell.

*Method.* Membership of the pair list from C24; then the assembly theorem of C49 for an arbitrary list of links.

* `SD.C75_entry` (PeriodicNear): (entries). In a periodic box the near-field matrix, before the change to dumbbell coordinates and without the viscosity, is the sum over pairs of a bead and the image of another bead in the cell centred on it: one image of each other bead, and none of the bead's own.
* `SD.C75_symmetric` (PeriodicNear): (symmetric). The matrix that is returned is square and symmetric, and acts on dumbbell velocities as the one in bead coordinates acts on bead velocities, times the viscosity.
* `SD.C75_dissipates` (PeriodicNear): (dissipation). With a table that does not feed energy into any pair the near field of the box takes energy out of every motion of the suspension.
* `SD.C75_images` (PeriodicNear): (images and translation). Replacing particles by images of theirs, each on its own, and moving all by the same vector changes nothing: whatever the table and the sizes, the result (or the failure) is the same.
* `SD.C75_unbounded` (PeriodicNear): (large box). If every bead sees every later one itself in the cell centred on it, no radius is above 1 and no pair is exactly at the cutoff, then the near field of the box is the near field of the unbounded domain.
* `SD.C75_alone` (PeriodicNear): (own images). A single sphere has no near field, however small the box: its own images are not counted.
* `SD.C75_fails` (PeriodicNear): (failure). For beads at different places the near field fails exactly if the edges of the box do not span space or some size ratio that is looked up is not in the table.
* `SD.C75_one_image` (PeriodicNear): (one image only). Two unit spheres half a side apart in a cube of side 5 have images on both sides, at the same distance `5/2`, well within the cutoff. The near field is that of the two spheres alone in unbounded fluid: the image on the other side is not counted.

*Missing.* That one image per pair is enough for physics is not claimed: `C75_alone` and `C75_one_image` show what is left out.

### C76 Grand resistance matrix of a periodic box — proved

*Model.* `Model/Frame` (`generate_grand_resistance_matrix_periodic`) with the generators of the code (`boxWorld`).

*Method.* C25 and C60 carried over: C54 for the far field, C75 for the near field, positive definiteness of an inverse (`Lemmas/Perturb`).

* `SD.C76_parts` (PeriodicGrand): (two parts). The grand resistance matrix of a periodic box is the inverse of the far-field mobility matrix of the box, or the matrix passed in if it is not to be regenerated, plus the near field of the box unless that is switched off. There is no drag approximation: the matrix is never returned with that setting.
* `SD.C76_stops` (PeriodicGrand): (stops). There is no matrix exactly if the drag approximation is asked for, or the far-field mobility is to be inverted and some forces cause no motion, or the near field is switched on and fails.
* `SD.C76_symmetric` (PeriodicGrand): (symmetric). The matrix is symmetric if the one kept from earlier is, where that is used.
* `SD.C76_translation` (PeriodicGrand): (translation). In a box in simple shear or at rest, moving every particle by the same vector changes nothing, nor whether there is a matrix.
* `SD.C76_viscosity` (PeriodicGrand): (viscosity). Multiplying the viscosity by `k` (and the matrix kept from an earlier frame, if there is one) multiplies the grand resistance matrix by `k`.
* `SD.C76_solvable` (PeriodicGrand): (solvable). If the far field of the box takes energy out of every motion, and the table does not feed energy into any pair, then there is a grand resistance matrix, it is positive definite, and every complete input is solved.

*Missing.* That the far field of a given small box is positive definite is a hypothesis of `C76_solvable`; C77 gives it for every large enough box.

### C77 A large periodic box is an unbounded fluid — proved

*Model.* The same functions; the far corner of the box is moved away along a fixed direction.

*Method.* All lattice sums scale with the box (`Lemmas/EwaldLarge`), so what the images add vanishes as the box grows (`Lemmas/EwaldLimit`); the near field is eventually that of the unbounded domain (C75); the inverse and the solution are continuous (`Lemmas/Perturb`, C78).

* `SD.C77_entry` (LargeBox): (entries). As the box grows, the entry that joins two components of the particles tends to the one in an unbounded fluid. Excepted are the two beads of one dumbbell when interactions between beads are off, and a sphere and a bead of different radii.
* `SD.C77_exchanged` (LargeBox): (a sphere and a bead of another size). In a large box the angular velocity or rate of strain of a sphere due to a force on a bead is not the one in an unbounded fluid but the one with the two radii exchanged.
* `SD.C77_own_beads` (LargeBox): (the beads of one dumbbell, with interactions between beads off). In a large box each bead still moves the other one, as in an unbounded fluid with the interactions on; in an unbounded fluid it does not (`C48_entry`).
* `SD.C77_grand` (LargeBoxGrand): (grand matrix). If the grand resistance matrix can be assembled in an unbounded fluid, then it can in every large enough box. It is symmetric, and it and the cached far-field inverse tend to those of the unbounded fluid.
* `SD.C77_answers` (LargeBoxGrand): (answers). If moreover the grand resistance matrix of the unbounded fluid is positive definite, then every complete input is solved in every large enough box, and the motions and loads tend to those in the unbounded fluid.
* `SD.C77_matrix` (LargeBoxMatrix): (far field). As the box grows, every entry of the far-field mobility matrix that is returned tends to that of the matrix for an unbounded fluid.
* `SD.C77_mobility` (LargeBoxMatrix): (dissipation). So for spheres and beads that are not too close, the far-field mobility matrix of every large enough box is positive definite.
* `SD.C77_rate` (LargeBoxMatrix): (rate). For the velocities due to forces, the error is in proportion to `1 / L`, with the same constant for all pairs of beads, and for a bead's own force: the velocity at a point due to the images of a force there, in the box with sides `d`.

*Missing.* The rate is proved for velocities due to forces only. Pairs exactly at the cut-off are excluded for the grand matrix, since the two pair lists use different inequalities there.

### C78 A small error in the resistance matrix makes a small error in the answer — proved

*Model.* `solveForm` (all input forms); spec `Spec/SolveStable`.

*Method.* The difference of two answers does no work against the difference of the loads, because each component is prescribed in one of them; then coercivity and Cauchy-Schwarz.

* `SD.C78_bound` (SolveStable): (bound). Solve the same input, of any form, with two symmetric resistance matrices. If every unit motion takes at least the power `c` with one of them, the two motions differ by at most the distance of the matrices divided by `c`, relative to the motion found with the other one.
* `SD.C78_solved` (SolveStable): (still solved). A symmetric matrix nearer than `c` to one with which every unit motion takes at least the power `c` solves every complete input.
* `SD.C78_stiff` (SolveStable): (stiffness). Every positive definite matrix has such a `c`.
* `SD.C78_continuous` (SolveStable): (continuity). If symmetric matrices tend to a symmetric positive definite one, then from some point on every complete input is solved with them, and the motions and loads tend to those found with the limit.

*Missing.* –

### C79 Spheres are drawn as discs that face the camera — proved

*Model.* `Model/Graphics` (`rotation_matrix`, `normal`, the vertices of a patch); spec `Spec/Graphics` (`toCamera`, `facingDisc`).

*Method.* The matrix is shown to be the turn of Rodrigues' formula, so it preserves products; it takes the vertical to the normal when that does not point down.

* `SD.C79_rotation` (GraphicsView): The matrix turns by the angle whose sine is the length of `d`, about `d`, left-handedly; and it leaves everything if `d` is zero.
* `SD.C79_disc` (GraphicsView): A sphere or bead is drawn as the disc of its radius about its centre that faces the camera, from every viewing angle between straight up and over to straight down and over.
* `SD.C79_disc_beyond` (GraphicsView): Beyond that the disc is not seen from the front: some of its points are nearer to the camera than its centre, unless the camera is straight below.
* `SD.C79_beads` (GraphicsView): The two beads of a dumbbell are drawn where the rest of the program has them.

*Missing.* The vertices of the circle, the projection to the screen and the painting are matplotlib's. The root of a negative number, for a vector longer than 1, does not arise from the callers.

### C80 What shades, colours and arrows show — proved

*Model.* `Model/Graphics` (`lineShade`, `sphereColour`, `dumbbellColours`, `plot_all_force_lines`, `plot_all_lines`).

*Method.* Bounds by Cauchy-Schwarz; invariant of the loops for the arrows.

* `SD.C80_shade` (GraphicsColour): The line from the centre of a sphere to a mark on it or in it is the lighter the nearer the mark is to the camera: from black at the far side to half-way to white at the near side, in proportion. The view must not be level.
* `SD.C80_shade_level` (GraphicsColour): In a level view, which is the default, the line has the same grey whatever side of the sphere the mark is on.
* `SD.C80_shade_range` (GraphicsColour): Shades are shades: between black and half-way to white.
* `SD.C80_sphere_colour` (GraphicsColour): The colour of a sphere goes from blue to red as its force grows to 1, and is red from there on.
* `SD.C80_bead_colour` (GraphicsColour): The colour of a bead goes from green to red with the square of its force, and is red from half of the largest component of any force on. The measure is the largest component, with its sign, along the axes. If that is not positive, every bead is green. Here `f1` and `f2` are the forces on the first and second beads.
* `SD.C80_bead_axes` (GraphicsColour): So the colours depend on the axes: the same force is drawn red if it points along `x`, and as no force if it points against it.
* `SD.C80_force_arrows` (GraphicsColour): The arrows of the forces: one for each sphere in the slab with a force. Its length is not that of the force times a fixed number: it is multiplied by 6 for each arrow up to this one.
* `SD.C80_arrows_differ` (GraphicsColour): Two spheres side by side with the same force: the second arrow is six times as long as the first.
* `SD.C80_other_arrows` (GraphicsColour): The arrows of torques, velocities and angular velocities: one for each sphere that has any, as long as the vector.

*Missing.* Labels next to arrows are left out.

### C81 What the frames of a video show — proved

*Model.* `Model/Graphics` (`video_frame`, `videoImages`, `videoCorners`, `plotPositions`).

*Method.* Direct; C30 for the sheared box.

* `SD.C81_frames` (Video): Without a range of its own, the video shows every `every`th saved frame, as many as there are.
* `SD.C81_forces` (Video): Before the last frame of the video, the forces drawn are those of the positions drawn only if the video starts at the first frame, and shows every frame or is at its first.
* `SD.C81_dumbbells` (Video): With any dumbbells there is no video, and no picture of a frame.
* `SD.C81_overrun` (Video): A video with a later start and no end of its own fails at the last frame, if it shows every frame.
* `SD.C81_unbounded` (Video): The video of all saved frames of an unbounded suspension of spheres: frame `k` shows every sphere at its saved place with its saved marks and the saved force of that frame. Its radius is 1 whatever it was in the simulation. The last frame, for which no force is saved, has the forces of the one before.
* `SD.C81_periodic` (Video): In a periodic box the same, for every copy shown: copies of a sphere have its force.
* `SD.C81_images` (Video): The copies shown are in the plane of `x` and `z`: those by one box vector or none along each of the two, as far as they are nearer than 1.4142 times the cube root of the volume.
* `SD.C81_itself` (Video): The box itself is always shown.
* `SD.C81_box` (Video): In simple shear along `x` growing along `z`, the red box is the cell of the suspension only while the offset of the box is a whole number of boxes: else its top and bottom are drawn slanting, and its sides upright, when it is the other way round.
* `SD.C81_cube` (Video): In a cube at rest the red box is right, and the copies shown are the four next to it; those at its corners are left out.

*Missing.* Files, titles, timing and the writing of the video are left out. The input of each frame is arbitrary.

### C82 Adding layers of images converges, and to the sum over all of them — proved

*Model.* `Model/Ewald` with the number of layers as a variable; spec `Spec/Layers`: sums over all lattice vectors and all wave vectors, convergence faster than every power.

*Method.* All derivatives of the real-space and wave-space kernels decay faster than every power (`Lemmas/EwaldDecay`); hence so do the tails over a lattice (`Lemmas/LatticeSum`, `Lemmas/EwaldLayers`). Scaling of the infinite sums for large boxes (`Lemmas/EwaldArray`); continuity of inverse and solution (C78).

* `SD.C82_pair` (Layers): (two particles). For two distinct beads that interact, the velocity due to a force tends to that in the infinite array, and so do the angular velocity due to a torque and the rate of strain due to a stress. With `n` layers the error is below every power of `1 / n`. The array is the box sheared by the whole strain so far, not folded.
* `SD.C82_velocity` (Layers): (velocity of a sphere due to a torque or stress on another). The waves are left out of these entries, and they tend to the sum over the images alone.
* `SD.C82_torque_stress` (Layers): (angular velocity of a sphere due to a stress on another). The limit is the one for a stress carried by a sphere of `√(5/3)` times the radius.
* `SD.C82_sphere_bead` (Layers): (a sphere and a bead of a dumbbell). The angular velocity or rate of strain of a sphere due to a force on a bead tends to the sum over the images alone, with the two radii exchanged.
* `SD.C82_own` (Layers): (a particle's own force or stress). The limit is the motion of an isolated sphere plus what all its images add.
* `SD.C82_own_torque` (Layers): (a sphere's own torque). The limit is too large by a constant, which more layers do not remove.
* `SD.C82_matrix` (Layers): (whole matrix). Every entry of the far-field mobility matrix, with dumbbells in their own coordinates, tends to a limit with an error below every power of `1 / n`. The limit is symmetric.
* `SD.C82_grand` (LayersAnswers): (grand matrix). If the limit of the far-field matrix can be inverted, then the grand resistance matrix is returned from some number of layers on, and it and the cached inverse converge.
* `SD.C82_answers` (LayersAnswers): (answers). If the limit of the far-field matrix is positive definite, and the table does not feed energy into any pair, then every complete input is solved from some number of layers on, and the motions and loads converge.
* `SD.C82_images` (LayersGrand): (images). Moving particles by box vectors, each by its own, and all of them by a common displacement, changes the far-field matrix by less than every power of `1 / n`.
* `SD.C82_large` (LayersGrand): (large boxes). The limits for infinitely many layers tend, as the box grows, to the entries in an unbounded fluid, so the order of the two limits does not matter. The exceptions are those of `C77_entry`.
* `SD.C82_mobility` (LayersGrand): (dissipation). For spheres and beads that are not too close, the limit for infinitely many layers is positive definite in every large enough box.

*Missing.* That the limit does not depend on the splitting parameter λ is C83; that every single response under the sums is that of the two kernels whose sum is the Stokeslet is C50 and C51. Bounds are not explicit in the number of layers.

### C83 Where the sums over images and waves are split makes no difference — proved

*Model.* `Model/Ewald` through C82; spec `Spec/Splitting`: the flow due to a point force in the infinite array, as a sum over images and a sum over waves for a given splitting parameter λ.

*Method.* Poisson summation for Gaussians on a sheared lattice, one direction at a time (`Lemmas/GaussLattice`); differentiation of lattice sums term by term (`Lemmas/LatticeDeriv`), also in λ (`Lemmas/EwaldSplit`, `Lemmas/EwaldSplitting`, `Lemmas/EwaldArrayGreen`); the derivative of the images by λ is minus that of the waves (`Lemmas/EwaldSplitIndep`).

* `SD.C83_flow` (Splitting): (the flow). At every point not on an image of the point force, the flow in the infinite array is the same for any two values of the parameter.
* `SD.C83_termwise` (Splitting): (term by term). Summing the responses through each image and each wave gives the response through the flow in the array, whatever the parameter and the volume that the waves are divided by.
* `SD.C83_motion` (Splitting): (the motion). Every component of the motion of one particle due to every load on another is the same for any two values of the parameter.
* `SD.C83_own` (Splitting): (a particle's own images). What its images add to a particle's own motion is the same for any two values of the parameter.
* `SD.C83_pair` (Splitting): (the code, two particles). The limit of the code's entries, as layers are added, is the motion in the infinite array computed with any value of the parameter. So the code's choice of it has no effect on the limit.
* `SD.C83_self` (Splitting): (the code, a particle's own force or stress).

*Missing.* Entries from which the code leaves out the waves, and the constant in a sphere's own rotation due to a torque, do depend on λ; that is a consequence of C82 and not a separate theorem.

### C84 The far field in a box is that of a flow that solves the Stokes equations — proved

*Model.* `Model/Ewald` through C82; spec `Spec/ArrayFlow`: `IsArrayFlow`, the Stokes equations for an array of point forces, with no sum over images or waves.

*Method.* The screened part is the Stokes operator of a radial field, so its Laplacian less a pressure gradient is a Gaussian times a polynomial (`Lemmas/EwaldStokes`); by Poisson summation (C83) that cancels the waves except for the wave of zero length, which is the uniform force. Limits at the lattice points by dominated convergence.

* `SD.C84_flow` (ArrayFlow): (the flow). With a pressure, the sum over images and waves solves the Stokes equations for an array of point forces balanced by a uniform force. This holds in every sheared box, and for every place to split the sum.
* `SD.C84_code` (ArrayFlow): (the code). There is a flow that solves the Stokes equations for an array of point forces, such that, as layers are added: * for two distinct beads that interact, the velocity due to a force, the angular velocity due to a torque and the rate of strain due to a stress tend to those of one sphere in that flow made by the load on the other; * the velocity of a bead due to its own force and the rate of strain due to its own stress tend to those of an isolated sphere, plus what is left of that flow at the sphere when the flow in an unbounded fluid is taken away.

*Missing.* `IsArrayFlow` fixes the flow only up to a uniform velocity (and that only by a uniqueness theorem for periodic Stokes flow, not proved here); that the mean of the flow over the box is zero is not proved.

### C85 For equal beads the shipped table feeds no energy into a suspension, except at one range of distances — proved

*Model.* `Model/ShippedData` (the numbers of `scalars_general_resistance_d.npy`, exactly, as integers over 2^78, generated from the bytes of the file), `Model/ShippedTable`.

*Method.* For equal spheres each of the four forms of C60 splits into motions alike and opposite, a test on integers per row (`Lemmas/EqualRows`); it is evaluated by the kernel for all 38 rows and for mixtures of rows at the two ends of the range; between rows the condition is kept by interpolation. Within the range explicit motions gain energy.

* `SD.C85_dissipates` (ShippedTable): (no gain). Beads of one size, no two of which are between 2.0092 and 2.0231 radii apart: with the table that comes with the program the near-field matrix is found, symmetric and positive semidefinite, for any number of spheres and dumbbells, any cutoff and either setting of the bead-bead switch.
* `SD.C85_gain` (ShippedTable): (gain). Two equal spheres between 2.0093 and 2.0230 radii apart, within the cutoff: with the table that comes with the program the near-field matrix has motions in which the fluid does work on the spheres.

*Missing.* between 2.0092 and 2.0093, and between 2.0230 and 2.0231, neither is claimed. Size ratios other than 1 are not classified (C87 has one range for ratio 100). The table without the far field subtracted (`scalars_general_resistance.npy`) and the text files are not modelled.

### C86 Suspensions of equal beads are solved with the shipped table — proved

*Model.* As C85, with the far field and the sum in `generate_grand_resistance_matrix`.

*Method.* Far field: the mobility form is the overlap of the flows of the spheres (C59); for stresslets it is at most that of fields confined to the balls (`Lemmas/StrainBound`, `Lemmas/FarStrain`), and by duality the resistance form is at least 8/3 π μ a³ times the squared strain rates. Near field: every row plus 5/1024 in the resistances to relative straining passes the test of C85 (`Lemmas/StrainSlack`), only neighbours closer than 2.0231 radii need it, and a bead has at most 27 of them by comparing volumes (`Lemmas/Packing`).

* `SD.C86_far` (ShippedSolve): (far field). The far field resists straining: whatever the spheres and dumbbells do, the power put into the fluid is at least that of straining every sphere alone at two fifths of its resistance.
* `SD.C86_near` (ShippedSolve): (energy gained). With the shipped table the near field of equal beads feeds at most `225/128 · π μ a³` times the squared strain rates of the spheres into the suspension.
* `SD.C86_solvable` (ShippedSolve): (grand). Beads of one size, at least 2.001 radii apart: with the table that comes with the program the whole resistance matrix is symmetric and positive definite at every cutoff, although its near-field part need not be, and every complete input of every allowed form is solved.

*Missing.* dumbbells whose bead-bead interactions are off (the far field is then not always positive definite, `C59_switch`), and beads closer than 2.001 radii.

### C87 For size ratio 100 the shipped table gives a resistance matrix that is not positive definite — proved

*Model.* As C85, for size ratio 100.

*Method.* About the line of centres the far field is a two-by-two system (`Lemmas/AxialTwist`), solved exactly: it resists the turning with at most 1.0011 times the torque on an isolated sphere, while the table contributes less than -1.005 times that torque.

* `SD.C87_gain` (UnequalGain): A sphere of radius `a` and one of radius `100 a`, between 2.012 and 2.021 average radii apart, in any direction: with the table that comes with the program the resistance matrix of the two, far field included, is computed but is not positive definite. If the small sphere turns about the line of centres and nothing else moves, the fluid does work on it.

*Missing.* nothing: the claim is the failure itself.

### C88 With the shipped table a run of equal beads stops early only when beads touch — proved

*Model.* `Model/Frame`, `Model/ShippedTable`, `Model/ShippedInputs`, `Model/Setups`.

*Method.* The existence of every step (`Lemmas/Progress`) needs only a property of the cached inverse that is kept from frame to frame. Here it is that the inverse resists straining as C86 has it; by C86 the near field of any later positions can then be added.

* `SD.C88_stops` (ShippedRun): (why a run stops). Beads of one size, the shipped table, the full far field and a fixed viscosity: with inputs that are in order and from a start without touching beads, the program is stopped by an exception only in a frame in which two beads come closer than 2.001 radii, however rarely the far field is inverted anew.
* `SD.C88_setups` (ShippedRun): (listed setups and inputs). A run with the shipped table from one of the setups 1 to 3, with an input of `setups/inputs.py` that works without a periodic box, stops early only because two spheres have come to touch.
* `SD.C88_endless` (ShippedRun): (without end). In the shear flow of input 7 with prescribed stresslets, beads of one size, among them a sphere, that start without touching are simulated with the shipped table to the end, however many frames are asked for.

*Missing.* the mode in which the far field is a drag matrix, which lacks the factor 6π (C58), so that the argument of C86 does not apply; sizes other than one; setup 4, which has two sizes.

### C89 The answer does not depend on the order in which the particles are listed — proved

*Model.* `Model/Solve`, `Model/Grand`.

*Method.* The matrix of the reordered particles is the reordered matrix (C18). Reordered, the equations of C55 for the one problem become those for the other, and their solution is unique because the matrix is positive definite (`Lemmas/SolveRenum`).

* `SD.C89_renumber` (SolveRenumber): (numbering). The grand resistance matrix of a configuration is built, in any mode, with a table that satisfies the reciprocal theorem, and a problem is solved with it. List the spheres in the order `σ` and the dumbbells in the order `τ`, with their inputs in the same order (in the forms with prescribed velocities, so that the particles that have them still come first). Then the matrix can be built too, and the solution is the old one in that order.
* `SD.C89_shipped` (SolveRenumber): (shipped table, beads of one size). Both problems can be solved, whatever the order, and the solutions are the same in the two orders.

*Missing.* positive definiteness of the matrix is a hypothesis of `C89_renumber`; it is proved for dissipating tables (C60) and in `C89_shipped` for the shipped one. `extract_force_on_wall_due_to_dumbbells` is not covered.

### C90 Whole runs do not depend on the order in which the particles are listed, except through the first sphere — proved

*Model.* `Model/Frame`, `Model/Timestep`, `Model/Solve`.

*Method.* Induction over stages, steps and frames, as for C64 (`Lemmas/RenumStage`, `Lemmas/RenumRun`); the caches of the two runs are kept in correspondence. `C90_first` compares the velocities after `add_background_flow_dumbbells`.

* `SD.C90_untouched` (RenumberRun): (run). The spheres are listed in the order `σ` and the dumbbells in the order `τ`, and the input function answers for them in that order. With a table that dissipates and satisfies the reciprocal theorem for the sizes present, and as long as no two beads come closer than 2.001 average radii, both programs run through, with any scheme and in any mode, and everything that the second saves is what the first saves, in that order.
* `SD.C90_shipped` (RenumberRun): (shipped table). The same with the table of the project, for beads of one size and a fixed viscosity, with the full far field.
* `SD.C90_first` (RenumberRun): (the first sphere). All dumbbells are carried by the strain of the sphere that is listed first. Two spheres change places, and the solver returns the same motion and the same strains in the new order. Then the dumbbells move differently: the velocities differ by the difference of the strains of these two spheres applied to the position, and half the link velocities by half of that applied to the link.
* `SD.C90_listed` (RenumberRun): (listed inputs). Particles falling under gravity (input 1), in the oscillating shear with springs (input 3) or in the constant shear (input 7), with prescribed stresslets or strains: as long as no beads touch, the program started from the same particles listed in another order saves the same history in that order. If there are dumbbells and the strains are not prescribed, the first sphere has to stay the first, see `C90_first`.

*Missing.* inputs 4 and 5 are not shown to fit (input 5 drives the first half of the list and does not treat the particles alike); input functions that read the resistance matrix; the periodic code.

### C91 A simulation keeps the symmetry of its start; particles in a plane stay in it — proved

*Model.* `Model/Frame`, `Model/ShippedInputs`.

*Method.* By C64 the moved start leaves the moved history; if the moved start is the start, the history is its own image. C64 is extended to the shipped table (`C64_shipped`): all it needs of the solver is a property of the cached inverse kept from frame to frame.

* `SD.C91_symmetric` (SymmetricRun): (symmetry). The start and the inputs are unchanged by the motion `x ↦ Q x + t` (a rotation or a reflection). With a table that dissipates, as long as no two beads come closer than 2.001 average radii, the program runs through and everything it saves is unchanged by the motion.
* `SD.C91_shipped` (SymmetricRun): (symmetry, shipped table). The same with the table of the project, for beads of one size.
* `SD.C91_plane` (SymmetricRun): (plane). Particles of one size in the plane `y = 0`, driven by one of the listed inputs with the table of the project: as long as no two beads come closer than 2.001 radii, the program runs through, and in every saved frame all particles and their arrows are in the plane, and so are the forces, whether or not the planar mode is on.

*Missing.* symmetries that exchange particles (they follow for whole runs by putting C64 and C90 together, which is not done); the entries of the arrays behind the last particle, which the code does not have, must have the symmetry too.

### C92 A symmetric problem has a symmetric answer; a pair or a ring of equal spheres falls in formation for ever — proved

*Model.* `Model/Resistance`, `Model/Solve`, `Model/Frame`, `Model/ShippedInputs` (input 1).

*Method.* Covariance of far field, near field and drag under a turn combined with a renumbering makes the grand resistance matrix commute with the symmetry; where the code finds an answer the linear system has only one, so the answer is its own image. For runs, an invariant of the frames: all mutual displacements as at the start, a cached inverse that commutes with the symmetries, equal last velocities. A pair has the point reflection (which turns gravity round); a ring has its cyclic rotation and the reflection in its plane.

* `SD.C92_assembly` (FallingPair): (falling assemblies). Equal spheres under gravity, with the strain of each sphere prescribed to be zero, whose symmetries leave them no choice but to fall with one velocity, and a table that dissipates: the program always writes its file, in every scheme, and in every frame all spheres are apart exactly as they were in the beginning.
* `SD.C92_assembly_shipped` (FallingPair): (falling assemblies, shipped table). The same with the table that is shipped with the program, for which the near field alone can gain energy.
* `SD.C92_falling` (FallingPair): (falling pair). Two equal spheres under gravity, with the strain of each sphere prescribed to be zero and a table that dissipates: the program always writes its file, in every scheme, and in every frame the two spheres are apart exactly as they were in the beginning.
* `SD.C92_falling_shipped` (FallingPair): (falling pair, shipped table). The same with the table that is shipped with the program.
* `SD.C92_ring` (FallingPair): (falling ring). Any number of equal spheres at the corners of a regular horizontal polygon, under gravity, with the strain of each sphere prescribed to be zero and the table that is shipped with the program: the program always writes its file, in every scheme, and in every frame the spheres form the polygon that they formed in the beginning.
* `SD.C92_symmetric` (SelfImage): (symmetric problems). The suspension looks the same after a rotation or reflection that may exchange particles, and what is prescribed (in the form `fts` or `fte`) looks the same (`ε = 1`) or the opposite (`ε = -1`). Then so do all forces, torques, stresslets and motions of the answer, in every mode, and the far-field part that is kept for later frames keeps symmetric motions symmetric.
* `SD.C92_pair` (SelfImage): (two equal spheres). Load two equal spheres oppositely (`ε = 1`: opposite forces, equal torques and equal stresslets or strains) or alike (`ε = -1`: equal forces, opposite torques, opposite stresslets or strains). Then they move oppositely and turn alike, or move alike and turn oppositely.

*Missing.* the forms `ufte`, `ufteu`, `duf` and periodic boxes; runs in which the particles do not all move alike (see C94). In the form `fts` the statement about falling spheres is not made: the code adds each sphere's own strain, times its place, to its velocity (see C68), which differs between the spheres.

### C93 Spheres with prescribed velocities go exactly where they are told — proved

*Model.* `Model/ShippedInputs` (inputs 5 and 6), `Model/Solve` (`ufte`), `Model/Frame`.

*Method.* The solver in the form `ufte` copies the prescribed velocities, torques, strains and loads to its output whatever the matrix is; there is no background flow; so the velocity of a driven sphere is the prescribed constant in every stage, and each scheme moves it by the time step times that constant (induction over frames, with the last velocities for Adams-Bashforth).

* `SD.C93_apart` (DrivenSpheres): (input 5). In the form `ufte`, after `k` error-free frames of any scheme each sphere of the first half is exactly `k dt` to the left of its start, each of the others exactly `k dt` to the right, whatever else is in the suspension, whatever the table and the modes.
* `SD.C93_walls` (DrivenSpheres): (input 6). With its 99 spheres in the form `ufte`, after `k` error-free frames the first 45 spheres are exactly `k dt` to the left of their starts and the next 45 exactly `k dt` to the right.
* `SD.C93_answers` (DrivenSpheres): (what the answers say). In each stage with input 5 or 6 all torques, strains and loads on dumbbells are zero, the velocities are the prescribed ones, and with input 6 each of the last nine spheres carries the force `(10, 0, 0)`.

*Missing.* periodic boxes; that the run gets so far without an exception is C88 and C65.

### C94 Orientation arrows are passengers; a symmetry that exchanges particles is kept — proved

*Model.* `Model/Frame`, `Model/Program` (arrows are part of `Config`), `Model/ShippedInputs`.

*Method.* Arrows: the relation "the same but for the arrows" is kept by every scheme and frame (induction), and what is saved is read off it. Exchanges: the run from the moved start is the moved run (C64), the run from the renumbered start is the renumbered run (C90); for a start with the symmetry both starts are the same particles, up to the arrows, so both files hold the same particles and forces.

* `SD.C94_arrows` (Passengers): (arrows). The same particles are started with two choices of orientation arrows, and the input function does not look at the arrows. Whenever both runs get to frame `k`, the particles, the velocities and the forces saved so far are the same, in every scheme and with or without a periodic box.
* `SD.C94_files` (Passengers): (files). The two files hold the same particles and forces.
* `SD.C94_exchanged` (Passengers): (exchanges). The motion `x ↦ Q x + t` puts every particle of the start where another particle was, and the inputs have the same symmetry. With a table that dissipates and satisfies the reciprocal theorem, as long as no two beads come closer than 2.001 average radii, the program runs through, and in every saved frame the motion puts every particle where the same other particle was, and turns its force into that of the other.
* `SD.C94_shipped` (Passengers): (exchanges, shipped table). The same with the table of the project, for beads of one size.
* `SD.C94_listed` (Passengers): (listed inputs). Beads of one size falling under gravity (input 1), in the oscillating shear with springs (input 3) or in the constant shear (input 7), with the table of the project: a symmetry of the start that is one of the flow is kept, as long as no beads touch.
* `SD.C94_pair` (Passengers): (sheared pair). Two equal spheres on opposite sides of the origin in the constant shear (input 7), with any scheme and the table of the project: as long as they do not touch, they are on opposite sides of the origin, at the same distance from it, in every saved frame.

*Missing.* the repulsion of input 4 and the inputs that treat spheres by number (2, 5, 6); the arrows themselves are not claimed to be symmetric.

### C95 Nearby places give nearby answers, except at the range of the near field — proved

*Model.* `Model/Minfinity`, `Model/R2B`, `Model/ClosePairs`, `Model/GrandResistance`, `Model/Solve`, `Model/ShippedTable`.

*Method.* The entries are those of the specification (C48, C19), which are continuous in the places: the three branches of the far field agree where they meet, `np.interp` is continuous, and a pair that is not at the range stays inside or outside it. The inverse is continuous where it exists, and so is the solve at a positive definite matrix (C78). The jump: inside the range the near field of the shipped table presses the two spheres apart with a force that stays away from zero, outside there is none; the loads and motions solve one system with it and one without, and cannot be the same.

* `SD.C95_far` (Nearby): (far field). If the particles move to the places of `P0`, then every entry of the far-field mobility matrix tends to that of `P0`, also where beads overlap.
* `SD.C95_near` (Nearby): (near field). If moreover in `P0` no pair of beads is exactly at the range of the near field, the table has ascending distances and contains the size ratios that occur, then the near-field matrix can be assembled in all places near those of `P0`, and every entry tends to that of `P0`.
* `SD.C95_grand` (Nearby): (grand resistance matrix). In every mode, also when the far field of an earlier frame is used again (which then has to tend to that used for `P0`): the grand resistance matrix can be assembled in all places near those of `P0`, and it and the far field that is kept for later tend to those of `P0`.
* `SD.C95_answers` (Nearby): (answers). If moreover the grand resistance matrix of `P0` is symmetric and positive definite, then every input that is solved for `P0` is solved in all places near those of `P0`, and the motions and loads tend to those of `P0`.
* `SD.C95_shipped` (Nearby): (shipped table). With the table that comes with the program and beads of one size that do not overlap, everything above holds: every complete input is solved in all places near those of `P0`, and the motions and loads tend to those found for `P0`, unless a pair of beads of `P0` is exactly at the range of the near field.
* `SD.C95_jump` (RangeJump): (jump). With the table that comes with the program this is not so for a pair at the range of the near field. Let one of two unit spheres be driven with unit velocity towards the other one, which is held. For each range `2 k` of the near field, the answers for distances just below the range have limits as the distance grows to the range, and these are not the answer at the range.

*Missing.* runs of many frames; periodic boxes; inputs that depend on the places.

### C96 Symmetric suspensions in a periodic box have symmetric answers; all spheres of a cubic array fall at the same rate — proved

*Model.* `Model/Ewald`, `Model/R2BPeriodic`, `Model/ClosePairsPeriodic`, `Model/Solve`, `Model/Setups`.

*Method.* Reversing axes maps the set of images in the truncated sums to itself, so the far field commutes with the symmetry; the near field does, if the images that the code picks are carried to each other (`LinksKept`), which is proved for one and two spheres and for bricks without tied diagonal images in range. Where the code finds an answer it is the only one (`solve_decides`), so it is its own image.

* `SD.C96_array` (BoxArray): (cubic array). The eight spheres of `simple_cubic_8(L)` in its box are pulled alike along an axis, without torques and without stresslets (or strains). If the spheres do not overlap and the diagonals of the array are out of the range of the near field, then all spheres have the same velocity along the axis.
* `SD.C96_example_c` (BoxArray): (example c). Setup 3 with input 2 in the form `fte`, as example (c) of the documentation runs it, with a range of the near field below `4 √2`: whenever the first stage gives an answer, all eight spheres fall at the same rate. (The example reads off that of the first.)
* `SD.C96_symmetric` (BoxImage): (symmetric problems in a box). The suspension, the box and the chosen images of close pairs look the same after a change of signs of the axes that may exchange particles, and what is prescribed (in the form `fts` or `fte`) looks the same (`ε = 1`) or the opposite (`ε = -1`). Then so do all forces, torques, stresslets and motions of the answer, and the far-field part that is kept for later frames keeps symmetric motions symmetric. Reversal of all axes is allowed in every box, other changes of signs in a box at rest.
* `SD.C96_fall` (BoxImage): (spheres that fall). All spheres are pulled with the same force, without torques and without stresslets (or strains). Then the velocities of a sphere and of the one that comes to its place belong to each other.
* `SD.C96_alone` (BoxImage): (one sphere). A single sphere in a periodic box, sheared or not, that is pulled without torque (and without stresslet or strain) does not turn. In a box at rest it moves along an axis if it is pulled along it.
* `SD.C96_pair` (BoxImage): (two equal spheres). Two equal spheres in a periodic box, sheared or not, that are pulled alike without torques (and without stresslets or strains) move alike and turn oppositely, wherever they are.
* `SD.C96_brick` (BoxImage): (brick). Eight equal spheres at the corners of a brick in a box at rest are pulled alike along an axis `e`, without torques and without stresslets (or strains). Then their velocities along the axis are equal: after one Euler step they are still level with each other.

*Missing.* rotations by quarter turns, reflections in sheared boxes; the other velocity components of the eight spheres (the truncated sums are not exactly periodic, so they need not vanish); denser cubic arrays (see the findings). Whether the box of setup 3 gives an answer at all is not proved; the examples beside the theorems show answers in all large boxes.

### C97 As the time step shrinks, the runs of all three schemes converge to one and the same motion — proved

*Model.* `Model/Frame`, `Model/Time`, `Model/Solve`, `Model/Minfinity`, `Model/R2B`; the motion in continuous time is specified in `Spec/Converge` (`Follows`: the velocities are those that `generate_output_FTSUOE` finds at the places of the motion).

*Method.* Away from contact and from the range of the near field the velocities are a locally Lipschitz function of the places at which the near field is taken, of those at which the far field was inverted, and of those at which the background flow is taken (`Course.vel_ll`). By compactness one constant serves along the whole motion. One frame then errs by the square of the time step, with all Runge-Kutta stages, old far fields and old velocities within a multiple of the step of the motion (`step_near`), and a discrete Gronwall estimate adds up the errors (`Near.frame`). Existence is the theorem of Picard and Lindelöf; uniqueness follows from the convergence.

* `SD.C97_converges` (Converge): (convergence). Spheres under inputs that do not change, with a table that dissipates: if the equations of motion have a solution up to the time `T`, on which no two spheres touch or are exactly at the range of the near field, then the runs in `n` equal steps up to `T` go through for all large `n`, and at all frames they are within a constant times `1 / n` of it. This holds for Euler's, the Adams-Bashforth and the Runge-Kutta scheme, and however rarely the far field is inverted.
* `SD.C97_shipped` (Converge): (the shipped table). The same for spheres of one size with the shipped table.
* `SD.C97_unique` (Converge): (one motion). The equations of motion have no two different solutions from the same start.
* `SD.C97_exists` (Converge): (a motion for some time). From every start in which no two spheres touch or are exactly at the range of the near field, the equations of motion have a solution for some time.
* `SD.C97_schemes` (Converge): (all schemes agree in the limit). Two runs to the same time, in `n` and `n'` steps, with whatever two schemes and intervals between the inversions, end within a constant times `1 / n + 1 / n'` of each other.
* `SD.C97_listed` (Converge): (listed setups). The runs of example (b), and with them those from the setups 1 to 3 under the inputs 1, 5 and 7 in all forms that work with them: from a start not exactly at the range of the near field there is one motion, and as long as it lasts, the runs of all schemes, with all intervals between the inversions of the far field, converge to it as the time step shrinks.

*Missing.* dumbbells; inputs that change with time or place (2, 3, 4, 6); periodic boxes; the fully two-dimensional setting; motions that cross the range of the near field, where the velocities jump (`C95_jump`). The orders 2 and 4 of the schemes are not claimed: the velocities have kinks where the table is interpolated.

### C98 Runs depend continuously on where the spheres start — proved

*Model.* As for C97; `Spec/Depend` says which runs keep clear (`Clears`) and what continuous dependence is (`Depends`).

*Method.* Each stage of the given run has a neighbourhood in which the velocities are a Lipschitz function of the places of the near field, of the far field and of the background flow (`pair_stage`). One frame multiplies the distance of two runs, in places, in the far field in use and in the last velocities, by at most a constant (`pair_euler`, `pair_rk4`); induction over the frames multiplies the constants (`beside`). That the other run exists follows from C71 (`run_exists`).

* `SD.C98_depends` (Depend): (continuous dependence). Spheres under inputs that do not change, with a table that dissipates: if a run of `k` frames keeps clear of contacts and of the edge of the near field, then the runs from all starts near its start go through, and their ends are no further from its end than a constant times the distance of the starts. This holds for all three schemes and however rarely the far field is inverted.
* `SD.C98_shipped` (Depend): (the shipped table). The same for spheres of one size with the shipped table.
* `SD.C98_along` (Depend): (runs with small steps). As long as the motion of C97 lasts, all the runs that follow it with small enough steps keep clear, so that they depend continuously on their starts.
* `SD.C98_limit` (Depend): (limits). Under these conditions, runs from starts that tend to the start of the given run end in places that tend to its end.
* `SD.C98_listed` (Depend): (listed setups). For the setups 1 to 3 under the inputs 1, 5 and 7 in all forms that work with them: every run of every scheme that keeps clear depends continuously on where the spheres start; and from a start not exactly at the range of the near field there is a time up to which all the runs with small enough steps do so.
* `SD.C98_default_range` (Depend): (default range). With the default range, 2, the setups 1 and 3 start with spheres exactly at the range of the near field, where the answers jump (`C95_jump`); setup 2 does not.

*Missing.* dumbbells; inputs that change with time or place; periodic boxes; the fully two-dimensional setting. The constant is not uniform in the number of frames. At the range of the near field the claim is false (`C95_jump`).

### C99 The example scripts read the right numbers from the file — proved

*Model.* The arithmetic of both scripts on the saved file, with the exceptions of the plots (`Model/Examples`). `Spec/Examples` says what a row of spheres is (`Row`), that a file holds two frames of vertical motion (`Sunk`) and what a drag coefficient is (`stokesRatio`).

*Method.* The reflections of a row that keep its axis and the one that exchanges its ends turn the input into itself, so by C87 and C90 the velocities are vertical and symmetric. The solve of the start does not use the timestep, so one frame moves the spheres by the timestep times these velocities. For the box, the move of the first sphere is a step of the solver's velocity and a whole number of sides (C36); that all eight fall alike is C96.

* `SD.C99_chain` (Examples): (rows of spheres). The program with input 1 in the form `fte` and the shipped table, for one Euler or Adams-Bashforth frame, on spheres of one size in a horizontal row: it writes its file with every timestep. There are velocities `w`, the same for every timestep, and the same as the solver finds, with which the spheres move straight down or up. They are the same from both ends of the row, and their sum points down. The drag coefficients of example (a) are those of the velocities times the timestep, because the script takes the timestep to be 1.
* `SD.C99_example_a` (Examples): (example a). Setup 1 with input 1 in the form `fte`, for one frame of any timestep `h`, as example (a) of the documentation runs it with `h = 1`: the script plots the eight drag coefficients from the middle sphere to the last. The spheres on the other side of the middle have the same coefficients.
* `SD.C99_fifteen` (Examples): (fifteen spheres). On a file with any other number of spheres the script of example (a) raises an exception.
* `SD.C99_fraction` (Examples): (volume fraction). On a file that starts with the cubic array of side `s`, example (c) plots at the place of the volume fraction: the volume of eight unit spheres over that of the box.
* `SD.C99_first_sphere` (Examples): (first sphere). What example (c) plots, for any file with two frames of any suspension with a sphere, with or without dumbbells: `-6 π` times the distance that the first sphere has gone up in the first frame.
* `SD.C99_box_writes` (Examples): (files of periodic boxes). One Euler frame of spheres with input 2 in the form `fte`: whenever the grand resistance matrix of the start can be made and is symmetric and positive definite, the program writes its file.
* `SD.C99_example_c` (Examples): (example c). Setup 3 with input 2 in the form `fte`, for one Euler or Adams-Bashforth frame, as example (c) of the documentation runs it, whatever the matrices of the box: whenever the program writes a file, the script plots at the volume fraction `π / 48`. What it plots there is `-6 π` times the vertical velocity `u` that the solver finds for the first sphere and the timestep, because it takes the timestep to be 1, if that sphere stays in the box. If it leaves the box, and has been put back, a multiple of the side 8 is added.
* `SD.C99_example_c_all` (Examples): (example c, all spheres). With the matrices that the code makes for the box and a range of the near field below `4 √2`, the velocity that the script reads off the first sphere is that of all eight.

*Missing.* whether the first sphere stays in the box is a hypothesis, and that the periodic grand resistance matrix is positive definite is one of `C99_box_writes`; the comparison with the figures of the papers; plots of files with more than the first two frames, which the scripts ignore.

### C100 The near-field functions are the multipole series — proved

*Model.* The functions `X11A` to `Z12M` with their constants, recurrences and truncated sums (`Model/Nearfield`). `Spec/Series` says what it is to be such a series near contact (`NearSum`), what the singular form is (`lubTerm`) and how it continues the coefficients (`continued`).

*Method.* The sums of `x^m`, `x^m / m` and `x^m / (m (m + 2))` over even and over odd `m` in closed form (`Lemmas/LubSeries`), with the difference from `1 / xi`, `log (1 / xi)` and `xi log (1 / xi)` bounded by a multiple of `xi`; the finitely many first coefficients are moved to the constants. The formulas with `truncation_m1_match` belong to the form with `m - 2`, the others to the one with `m + 2`. The first coefficients by unfolding the recurrences (`Lemmas/FirstCoeffs`).

* `SD.C100_A` (LubricationSeries): (forces). The four functions that give the forces on two moving spheres, for every size ratio. As the gap closes each is, up to an error in proportion to the gap, the sum of a series in the inverse distance: the first 100 coefficients come from the recurrences, and the others continue the form `g1 + 2 g2 / m - 4 g3 / (m (m - 2))` or `g1 + 2 g2 / m - 4 g3 / (m (m + 2))`.
* `SD.C100_B` (LubricationSeries): (torques of moving spheres). The same for the two functions that give the torques on moving spheres.
* `SD.C100_C` (LubricationSeries): (torques of turning spheres). The same for the two functions that give the torques on spheres turning across the line of centres. The odd powers have a limiting form of their own.
* `SD.C100_G` (LubricationSeries): (stresslets of moving spheres). The same for the four functions that give the stresslets of moving spheres.
* `SD.C100_H` (LubricationSeries): (stresslets of turning spheres). The same for the two functions that give the stresslets of turning spheres.
* `SD.C100_M` (LubricationSeries): (stresslets of straining spheres). The same for the six functions that give the stresslets of spheres in a straining flow. Here 130, 150 or 200 coefficients come from the recurrences.
* `SD.C100_error` (LubricationSeries): (error). If the code sums all the right coefficients as far as number `M`, then it finds the right function up to an error in proportion to the gap, plus what the later coefficients differ from their limiting form by.
* `SD.C100_reflections` (LubricationSeries): (reflections). The first coefficients are those of the method of reflections, for spheres of radii `a` and `b` at the distance `r`. Along the line of centres a sphere sees the flow `3 b / 2 r` of the other; across it, `3 b / 4 r`; the force on it changes in each reflection by that factor, and in the third order by the curvature of the flows besides. The torques, stresslets and the flows of turning and straining spheres come in at the orders at which they act.

*Missing.* that the recurrences give the right coefficients at all orders is Jeffrey and Onishi's theorem about Stokes flow, of which the orders up to three are checked. `X11C` and `X12C`, which the code sums without recurrences, are in C101.

### C101 The near-field functions for turning about the line of centres are those of the exact flow — proved

*Model.* The functions `X11C` and `X12C` with the Hurwitz zeta function as its series (`Model/Nearfield`). `Spec/Twist` has the swirls, their images, the flow and the torques, without reference to the code.

*Method.* A swirl and its image cancel on the sphere (inversion), so the sums telescope on sphere 1 and vanish term by term on sphere 2. The strengths are inverse cubes of a sequence with a linear recurrence of second order, `sinh (x + k g) / sinh x`; `1 / sinh^3 x = 1 / x^3 - exp (-x) / (2 x) + O(1 / (1 + x)^2)` sums to the zeta function, a logarithm and a remainder (`Lemmas/TwistRate`), and the parameters are expanded in the gap (`Lemmas/TwistGap`). The flow is differentiated term by term, with bounds on the derivatives of swirls along lines (`Lemmas/SwirlSum`); the stress on a sphere is integrated in closed form for each swirl and summed by dominated convergence (`Lemmas/SwirlTorque`). Uniqueness is the maximum principle, for each component (`Lemmas/SwirlUnique`).

* `SD.C101_swirl` (Twist): (swirls). A swirl is a Stokes flow without pressure everywhere but where it is.
* `SD.C101_strength` (Twist): (strength). The fluid of a swirl holds a sphere around it back with the torque `8 pi mu` times the strength of the swirl, wherever in the sphere it is, and exerts no torque on a sphere that it is outside of.
* `SD.C101_flow` (Twist): (flow). The images of swirls in two separate spheres are all inside the spheres, and add up to the flow around sphere 1, turning with unit angular velocity, and sphere 2, held: the sum exists everywhere in the fluid, and on the spheres it has their angular velocities.
* `SD.C101_stokes` (Twist): (exact flow). The sum of all images is a Stokes flow in the fluid, has the velocities of the two spheres on them, and far away the fluid is at rest.
* `SD.C101_unique` (Twist): (the only one). There is no other flow without pressure that has the velocities of the two spheres on them and is at rest far away.
* `SD.C101_held` (Twist): (torques of the flow). The fluid exerts on the two spheres the torques that the strengths of the images in them add up to.
* `SD.C101_torques` (Twist): (torques). The sphere that turns needs at least the torque it would need alone, the other has to be held back, and the torque on each due to the other is the same.
* `SD.C101_contact` (Twist): (contact). As the gap closes, the two functions that the code takes for the torques about the line of centres have the limits of the exact torques.
* `SD.C101_rate` (Twist): (small gaps). The difference from the exact torques is at most in proportion to the gap, so that the code has their limits and also their `xi log xi` terms.

*Missing.* that there is no other Stokes flow with these boundary values is proved among flows without pressure only.

### C102 The far field of two spheres that turn about their line of centres is that of the exact flow up to high powers — proved

*Model.* `generate_Minfinity` with its entries as in C48, for two spheres, and `generate_grand_resistance_matrix`; the exact torques as in `Spec/Twist`.

*Method.* The entries for torques about the line are `1 / (8 pi mu a^3)` and `1 / (8 pi mu r^3)`, and all others in the same columns vanish. Each image cancels its source up to the difference of `1 / (r - x)^3` and `1 / r^3`, where `x` is how far the source is from the centre; this is between `3 x / r^4` and `14 x / r^4`, and the strengths fall off geometrically. The inverse exists by C59, and on loads about the line it is the inverse of a matrix of two rows.

* `SD.C102_mobility` (TwistFar): Two spheres of any sizes, anywhere, at least the sum of their radii apart. The torques about the line of centres that in the exact flow (C101) turn the first with unit angular velocity and hold the second are given to the far-field mobility matrix that the code returns, and no other loads. Then the first turns about the line, too fast by a multiple of the eighth power of the radii over the distance; the second turns backwards, by a multiple of the eleventh power; and nothing else moves: no sphere moves along, turns about another axis or is strained.
* `SD.C102_torques` (TwistFar): (torques). The other way round: the far-field matrix has an inverse, as the code needs. If the first of the two spheres is to turn with unit angular velocity about the line of centres, the second is to be held and there is no other motion, this asks for torques about the line of centres and no other loads, and they are the exact ones up to multiples of `a^6 b^5 / r^8` and `a^6 b^6 (a^2 + b^2) / r^11`: that on the first is too small, that on the second does not hold it back enough.
* `SD.C102_resistance` (TwistFar): (resistance). So if the near field is switched off, or does not reach from one sphere to the other, the resistance matrix that the code builds, from any table with the size ratios, gives the exact torques up to these errors.
* `SD.C102_effect` (TwistFar): (the effect). The errors are small beside what they are errors of: the second sphere makes the first harder to turn by between multiples of `a^6 b^3 / r^6`, and has to be held back with a torque between multiples of `a^3 b^3 / r^3`.

*Missing.* only this motion: for the others no exact flow is known here.

### C103 The flow around a single sphere is exact, and its own mobility is that of the flow — proved

*Model.* `generate_Minfinity` with its entries as in C48; the flows as in `Spec/FarField`.

*Method.* The derivatives of the flows are those of C48; their traces vanish. The Laplacian of each is the gradient of an explicit pressure. On the surface, the terms of the flow with `x_i x_j` cancel because the weight of the Laplacian is `a^2 / 6` for forces and `a^2 / 10` for stresslets, and what remains is the diagonal entry.

* `SD.C103_stokes` (LoneSphere): (Stokes flow). The flow of each load on a sphere is a Stokes flow everywhere but at the centre of the sphere: it is incompressible, and the pressure balances the viscous stress.
* `SD.C103_sphere` (LoneSphere): (spheres). Take any sphere of a suspension of spheres and dumbbells, and any component of the load on it. The flow of this load, on the surface of the sphere, is the motion of the sphere with the velocity, angular velocity and strain that its own block of the far-field matrix gives.
* `SD.C103_bead` (LoneSphere): (beads). A bead of a dumbbell carries forces only, and moves without turning with the velocity of the fluid on its surface.
* `SD.C103_rest` (LoneSphere): (rest). Far away the fluid is at rest: outside of the sphere, the flow of a force falls off at least as the inverse distance from the centre, and those of torques and stresslets as its square.

*Missing.* that there is only one Stokes flow with these values on the sphere is not proved, and the force of the flow on the sphere is not integrated over its surface.

## Findings about the code

Places where the code disagrees with its documentation or with the property one would expect. Where a
theorem is named, the disagreement is proved in the model; the others were noticed while reading and
lie outside the model.

*Start-up and settings*
* `settings.py` reads the sixth command-line argument and then overwrites it (`C38_sixth_read`, `C38_sixth_lost`).
* The start-up check of size ratios looks only at spheres, so a dumbbell with an untabulated ratio starts and stops in the first frame (`C39_dumbbells_unchecked`, `C20_missing_ratio`). It calls `np.isclose` with the arguments in the other order than the lookup, so at the edge of the tolerance the two disagree (`C39_edge`); the lookups of (a,b) and (b,a) can disagree there too (`C40_edge`).
* Unknown input forms are accepted by the start-up check when there are spheres.
* `resistance_scalars/data.py` chooses the scalar file the wrong way round for the drag form of the far field (`C47_inverted`), and the file needed is not shipped (`C47_missing`).
* `lam_range_with_reciprocals = lam_range` aliases the list that is then sorted.

*Matrices*
* The near-field blocks of equal order use only the view of the lower-numbered bead, so relabelling is harmless only when the table satisfies the reciprocal theorem (`C18_needs_reciprocity`).
* The absolute tolerances `1e-8` and `1e-10` make two particles between those distances neither rescaled nor coincident.
* With `use_Minfinity_only` the returned matrix and the cached inverse are the same array.
* The Laplacian correction `a2**2/6` in `M23` has no effect (the curl of the Laplacian vanishes).
* Drag mode lacks the factor 6π that the drag-only table uses (`C58_no_stokes`); periodic drag mode raises `TypeError`; `stokes_drag_dumbbells_only` raises `TypeError`.

*Solving and stepping*
* Extracting forces in the UFTE form stops the program (`C10_extract_stops`). AB2 with dumbbells raises `TypeError`. A run with dumbbells only and no flow raises `IndexError`.
* RK4 adds the background flow at the positions of the start of the step (`C27_rk4_not_classical`), so it is not the classical method in a position-dependent flow.
* Fully-2D mode does not hold dumbbells in the plane (`C29_not_dumbbells`).
* The orientation update divides by zero for a zero orientation (`C28_degenerate`).
* `wrap_around` with its default arguments (no rotation, the *identity* as strain) treats the box as unsheared (`C30_default`).
* `oscillatory_shear` ignores `opposite_direction` (`C32_opposite_ignored`).

*Periodic neighbour search*
* A pair can be missed when a particle is large compared to the box (`C24_large_missed`), and the image chosen in a sheared box need not be the nearest (`C24_nearest_missed`).
* The near field in a box counts one image per pair and none of a particle's own images, however close they are (`C75_one_image`, `C75_alone`).

*Saving and resuming*
* A run told to save positions but no forces fails when it comes to write the file (`C35_positions_only`); a resumed run loses the last entry (`C37_last_entry_lost`).
* "60.0s" can be printed (`C43_sixty_seconds`).

*Random placement*
* `randomise_spheres` with one sphere always fails at the printed statistic (`C41_single`); it can loop for ever in a full box (`C41_full_box`). The two beads of one dumbbell are never checked against each other (`C42_own_beads`). Zero dumbbells raise `ValueError`.
* In both dumbbell placements the count of overlaps is not reset between the hundred tries for the second bead, so that only the first one (in an open box: the first one in the box) can succeed (`C71_one_try`, `C71_one_try_open`).
* `randomise_dumbbells_periodic` (never imported): only nine images are checked, which is too few for dumbbells longer than about half the box (`C71_long`); images in y are not checked (`C71_height_not_periodic`); a centre below the box in y is moved by `1e6` (`C71_lost_height`); an interactive prompt is left in, and looks at the first half of the beads only.
* `randomise_beads_inside_quadrilateral` always raises `TypeError`, as `reshape` gets a float (`C70_never_returns`). If it did not, `deltax` would be half the separation of the beads.

*Position setups*
* The walls of setups 6 and 7 are built of spheres at 2.00001 radii, below the threshold 2.001 under which the far field is altered (`C72_walls_touch`), so the guarantees about positive definite matrices do not apply to them.
* `same_setup_as` does not restore radii (`C72_replay`): they are 1 and 0.1 unless the caller says otherwise.

*Feeding*
* `feed_particles_from_bottom` raises `TypeError` in every frame in which it has something to do (`C74_returns`), and earlier with `ValueError` when no bead is to be removed (`C74_completes`). Its call in `run_simulation.py` is inside a string, so the setting `feed_every_n_timesteps` has no effect.

*Scalar scripts*
* The mid-field conversion never reads `y21a` and `y21c` (`C45_ignored`), so it is the true inverse only for input that satisfies the reciprocal theorem.
* The coefficient of `xi log xi` in `G3ym`/`G6ym` is inconsistent with the other near-field functions: the residual is `(4/25) π a³ (λ²+λ⁴)/(1+λ)³` (`C46_rough`). It vanishes if `-728` in `G6ym` reads `-748`.
* `combine_scalars.py` sorts the distances but not the scalars, so overlapping ranges of distances put scalars beside the wrong distance (`C57_mixed`); it then stops with an `AttributeError`; the subtract scripts write to a path they do not read from.

*Far field*
* With `bead_bead_interactions` off the open far-field mobility need not be positive definite even without overlap: a sphere between the beads of two dumbbells gains energy under suitable forces (`C59_switch`), while the same configuration is fine with the switch on.

*Near field*
* Nothing checks that the table of scalars is dissipative. A size ratio is matched with a relative tolerance of 1e-5, and a table that is not makes the near-field matrix indefinite (`C60_gain`).
* The shipped table is not dissipative: two equal spheres between about 2.0093 and 2.0230 radii apart can gain energy from the near field (`C85_gain`). For equal beads the far field makes up for it (`C86_solvable`); for size ratio 100 it does not (`C87_gain`): between 2.012 and 2.021 average radii the complete matrix is not positive definite. The rows of the table that cause this are those where the file passes from one method of computing the scalars to another (2.01 and 2.02).
* Dumbbells are carried by the strain of the first sphere in the list (`Ea_out_k1[0]`). With dumbbells, two or more spheres and strains that differ from sphere to sphere (always so if stresslets are prescribed), the motion of the dumbbells depends on the order in which the spheres are listed (`C90_first`, with a solved example).

*Shipped inputs*
* No input number can be run with `ufteu` or `duf`, and with `ufte` only 1, 2, 5 and 6 can; the other combinations raise in the first frame (`C66_stops`). Runs of dumbbells alone stop in the first frame unless the input is 3 or 7.
* With the form `fts` the strains that the solver computes for the spheres are passed on as the background strain, so the velocities depend on where the suspension sits relative to the origin (`C68_origin`), for instance for two falling spheres (`C68_origin_matters`).
* With the form `fts` and at least one sphere the strain of the shear flow of input 7 is not read, so the flow is a rigid rotation and the suspension only turns and slowly grows (`C69_shear_turns`, `C69_spiral`). With dumbbells only it is a shear (`C69_shear_dumbbells`).
* Input 5 prescribes velocities, but `fts` and `fte` do not read them: nothing moves (`C67_velocities_ignored`).

*Periodic far field*
* `M12` and `M13` drop the wave-space sum, which does not vanish (`C51_force_torque_waves`, `C51_force_stress_waves`, `C51_force_torque_wrong`, `C51_force_stress_wrong`).
* The self term of `M22` is marked as zero but is not: the code's angular velocity is too large by `40 λ³/(3√π)` times the prefactor (`C52_torque_torque_wrong`, `C52_cube_torque_wrong`).
* `M23` uses `a2²/6` where Faxén's law has `a2²/10` (`C51_torque_stress_defect`). The term multiplied is the curl of the Laplacian of the Green's function.
* Between a sphere and a bead of a dumbbell, `M12` and `M13` are called with the two radii in the order opposite to that of the sphere–sphere call with reversed displacement. The finite-size terms are then wrong for unequal radii (`C54_sphere_bead_wrong`, with a concrete configuration in `C54_sphere_bead_example`).
* With `bead_bead_interactions` off, the periodic code still writes the block between the two beads of one dumbbell; the open code does not (`C54_switch`, `C48_entry`).
* The wave vectors are listed in another order than the images whose lengths decide the cut-off. In a long box the waves kept do not have the symmetry of the box (`C53_lopsided`); in a cube they do (`C53_cube_waves_partial`).
* In the limit of a large box the wrong self term of `M22`, the missing waves and the radius in `M23` do not matter (`C77_matrix`). The exchanged radii and the block between the beads of one dumbbell remain (`C77_exchanged`, `C77_own_beads`), so with unequal radii, or with the interactions off, a large periodic box does not approach the open code.
* None of this goes away with more layers: the limit for infinitely many has the wrong self term of `M22`, lacks the waves in `M12` and `M13` and has the wrong radius in `M23` (`C82_own_torque`, `C82_velocity`, `C82_torque_stress`). The odd selection of waves does not affect the limit (`C82_pair`).
* The overlap rescaling looks at the direct displacement only, not at the nearest image.
* All real-space closed forms, the wave tensors and the self constants of `M11` and `M33` were confirmed.

*Range of the near field*
* The near field of the shipped table does not vanish at its range, so computed answers jump when the distance of a pair crosses it (`C95_jump`).
* In a cubic array of eight spheres each pair has two, four or eight nearest images at the same distance, of which the near field takes one. For pairs along an axis this does no harm (`C96_brick`). With the shipped range of twice the diameter and sides below 4√2 the tied diagonal pairs are in range too; then the matrix lacks the reflections of the array, and the assumption of example (c) that all spheres fall at the same rate is no longer a consequence of symmetry.

*Pictures*
* In a level view, which is the default of the simulation and of both plotting scripts, the shading of the orientation lines is constant (`C80_shade_level`): the sign of the elevation, 0, multiplies both distances.
* The colours of beads are scaled with the largest signed component of the forces, so a force along `x` is red and the same force against `x` is green (`C80_bead_axes`).
* `plot_all_force_lines` multiplies the whole array of forces by 6 for each arrow, so equal forces get arrows of lengths 6, 36, 216 … times the force (`C80_arrows_differ`).
* `make_video.py` and `plot_positions.py` call `plot_all_dumbbells` with an argument too many: neither works with dumbbells (`C81_dumbbells`).
* `make_video.py` takes the forces at the number of the frame of the video, not of the saved frame (`C81_forces`); with a later start and no end it runs past the saved frames (`C81_overrun`).
* The red box is drawn with the matrix of box vectors transposed, so a sheared box leans the wrong way (`C81_box`).
* The copies at the corners of a cube are left out because 1.4142 is a little less than the root of 2 (`C81_cube`).
* Discs do not face the camera for elevations between 180 and 360 degrees (`C79_disc_beyond`).
* With the default range of the near field (`cutoff_factor = 2`), the shipped setups 1 and 3 start with all nearest pairs exactly at the range (`C98_default_range`), where the answers jump by a finite amount (`C95_jump`).

*Examples*
* Examples (a) and (c) take the timestep to be 1. With a timestep `h` the drag coefficients come out divided by `h` and the velocity multiplied by `h` (`C99_chain`, `C99_example_c`).
* Example (a) raises an exception for any number of spheres other than fifteen (`C99_fifteen`).
* Example (c) takes the difference of places in the box as the velocity, which is off by a multiple of the side if the first sphere leaves the box in the first frame (`C99_example_c`).

## Appendix A: axioms of every property theorem

**[propext, Classical.choice, Quot.sound]** (482 theorems): `C01_uncondense_condense`, `C01_condense_uncondense`, `C02_condensed_power`, `C02_grand_power`, `C03_pack`, `C03_round_trip`, `C03_round_trip'`, `C04_tiling`, `C04_inside`, `C04_only_blocks`, `C05_fte_correct`, `C05_fts_correct`, `C06_ufte_correct`, `C07_ufteu_correct`, `C08_duf_correct`, `C09_spd_succeeds`, `C09_unique`, `C09_forms_agree`, `C10_placeholders`, `C10_incomplete_stops`, `C10_extract_stops`, `C11_mobility`, `C11_resistance`, `C11_inverse`, `C11_power`, `C12_symmetric`, `C12_translation`, `C13_reciprocal`, `C13_mirror_blocks`, `C14_derivatives`, `C14_stokes`, `C15_far`, `C15_near`, `C15_grand`, `C15_velocities`, `C16_separation`, `C16_pairwise`, `C17_components`, `C17_pair`, `C17_matrix`, `C18_grand_of_reciprocal`, `C18_farfield`, `C18_nearfield_of_reciprocal`, `C18_needs_reciprocity`, `C18_grand`, `C18_subtracted`, `C18_grand_subtracted`, `C18_grand_lubrication`, `C19_lone_sphere`, `C20_entry`, `C20_symmetric`, `C20_local`, `C20_self`, `C20_missing_ratio`, `C21_symmetries`, `C21_condensed`, `C22_interp`, `C22_ratio`, `C23_neighbours`, `C24_periodic`, `C24_degenerate`, `C24_nearest_missed`, `C24_large_missed`, `C25_near_field`, `C25_far_field`, `C25_drag`, `C25_symmetric`, `C25_stops`, `C26_schedule`, `C26_every_frame`, `C26_refresh`, `C26_first_stage`, `C26_whole_frame`, `C27_euler`, `C27_euler_dumbbells`, `C27_ab2`, `C27_ab2_dumbbells`, `C27_rk4`, `C27_rk4_dumbbells`, `C27_rk4_simpson`, `C27_rk4_cubic`, `C27_ab2_linear`, `C27_rk4_steady_flow`, `C27_rk4_not_classical`, `C28_rotation`, `C28_rotation_ab2`, `C28_rigid`, `C28_flow`, `C28_still`, `C28_degenerate`, `C29_fully_2d`, `C29_not_dumbbells`, `C30_folded_box`, `C30_wrap`, `C30_images`, `C30_idempotent`, `C30_fixed`, `C30_degenerate`, `C30_simple_shear`, `C30_default`, `C31_spheres`, `C31_dumbbells`, `C31_tracer`, `C32_constant`, `C32_constant_integral`, `C32_oscillatory`, `C32_oscillatory_integral`, `C32_oscillatory_stops`, `C32_opposite_ignored`, `C33_forces`, `C33_total`, `C33_pair`, `C34_flag`, `C34_raised`, `C34_euler_iff`, `C34_off`, `C34_rk4_iff`, `C34_latch`, `C35_saved`, `C35_forces_euler`, `C35_positions_only`, `C36_prefix`, `C36_removed`, `C36_age`, `C37_resume_partial`, `C37_last_entry_lost`, `C38_overrides_partial`, `C38_malformed`, `C38_sixth_read`, `C38_sixth_lost`, `C38_integers`, `C38_not_integers`, `C39_starts_iff`, `C39_lookup_partial`, `C39_edge`, `C39_dumbbells_unchecked`, `C40_table`, `C40_closed`, `C40_swap_partial`, `C40_edge`, `C41_valid`, `C41_definite`, `C41_missing_position`, `C41_single`, `C41_full_box`, `C41_every`, `C41_setup5`, `C42_valid`, `C42_definite`, `C42_missing_position`, `C42_own_beads`, `C42_setup6`, `C43_bounds`, `C43_last`, `C43_exact`, `C43_format_days`, `C43_format_hours`, `C43_format_minutes`, `C43_format_seconds_partial`, `C43_sixty_seconds`, `C43_format_hms`, `C44_read_back`, `C44_round_trip`, `C44_two_spheres`, `C45_inverse`, `C45_decode`, `C45_fails`, `C45_ignored`, `C45_balanced`, `C45_table`, `C45_reciprocal`, `C46_reciprocal`, `C46_linear_flow`, `C46_smooth`, `C46_rough`, `C46_approach`, `C46_shearing`, `C46_nodes`, `C46_columns`, `C46_lookup`, `C48_entry`, `C48_rows`, `C49_mobility`, `C49_inverse`, `C49_drag`, `C49_solvable`, `C50_erfc_derivatives`, `C50_kernels`, `C50_multipoles`, `C50_incompressible`, `C50_unscreened`, `C50_waves`, `C51_open_space`, `C51_force_force`, `C51_torque_torque`, `C51_stress_stress`, `C51_torque_stress_partial`, `C51_torque_stress_defect`, `C51_force_torque_partial`, `C51_force_stress_partial`, `C51_force_torque_defect`, `C51_force_stress_defect`, `C51_force_torque_waves`, `C51_force_stress_waves`, `C51_force_torque_wrong`, `C51_force_stress_wrong`, `C52_force_force`, `C52_stress_stress`, `C52_torque_torque_partial`, `C52_torque_torque_wrong`, `C52_torque_stress_partial`, `C52_no_self_coupling`, `C52_box_proper`, `C52_cube_torque_wrong`, `C53_images`, `C53_images_once`, `C53_waves_periodic`, `C53_wave_sum_periodic`, `C53_shear_volume`, `C53_symmetric`, `C53_cube_waves_partial`, `C53_lopsided`, `C54_force_force`, `C54_torque_torque`, `C54_stress_stress`, `C54_velocity_partial`, `C54_torque_stress_partial`, `C54_sphere_bead_partial`, `C54_switch`, `C54_own`, `C54_own_torque_partial`, `C54_own_torque_stress_partial`, `C54_viscosity`, `C54_symmetric`, `C54_translation`, `C54_dumbbell_coordinates`, `C54_sphere_bead_wrong`, `C54_sphere_bead_example`, `C55_farfield`, `C55_nearfield`, `C55_grand`, `C56_nearfield`, `C56_farfield`, `C56_grand`, `C57_aligned_partial`, `C57_order`, `C57_mixed`, `C58_scripts`, `C58_grand_partial`, `C58_no_stokes`, `C59_mobility`, `C59_two_beads`, `C59_inverse`, `C59_solvable`, `C59_switch`, `C60_modes`, `C60_near`, `C60_table`, `C60_solvable`, `C60_pair`, `C60_gain`, `C61_superpose`, `C61_reverse`, `C61_rest`, `C62_reciprocal`, `C62_dissipates`, `C62_least`, `C63_turn`, `C63_enlarge`, `C64_program`, `C64_frames`, `C64_untouched`, `C64_shipped`, `C65_program`, `C65_stops`, `C65_single`, `C66_complete`, `C66_stops`, `C66_runs`, `C67_still`, `C67_velocities_ignored`, `C68_inputs`, `C68_runs`, `C68_gravity`, `C68_origin`, `C68_origin_matters`, `C69_weight`, `C69_spring`, `C69_repulsion`, `C69_none`, `C69_shear_turns`, `C69_spiral`, `C69_endless`, `C69_shear_dumbbells`, `C70_inside`, `C70_outside`, `C70_boundary`, `C70_beads`, `C70_never_returns`, `C71_shape`, `C71_apart`, `C71_spheres`, `C71_one_try`, `C71_one_try_open`, `C71_flat`, `C71_lost_height`, `C71_long`, `C71_height_not_periodic`, `C72_apart`, `C72_room`, `C72_walls_touch`, `C72_listed`, `C72_lattice`, `C72_cubic_apart`, `C72_replay`, `C72_runs`, `C73_exact`, `C73_solver`, `C73_solvable`, `C74_completes`, `C74_beads`, `C74_clear`, `C74_returns`, `C75_entry`, `C75_symmetric`, `C75_dissipates`, `C75_images`, `C75_unbounded`, `C75_alone`, `C75_fails`, `C75_one_image`, `C76_parts`, `C76_stops`, `C76_symmetric`, `C76_translation`, `C76_viscosity`, `C76_solvable`, `C77_entry`, `C77_exchanged`, `C77_own_beads`, `C77_grand`, `C77_answers`, `C77_matrix`, `C77_mobility`, `C77_rate`, `C78_bound`, `C78_solved`, `C78_stiff`, `C78_continuous`, `C79_rotation`, `C79_disc`, `C79_disc_beyond`, `C79_beads`, `C80_shade`, `C80_shade_level`, `C80_shade_range`, `C80_sphere_colour`, `C80_bead_colour`, `C80_bead_axes`, `C80_force_arrows`, `C80_arrows_differ`, `C80_other_arrows`, `C81_dumbbells`, `C81_overrun`, `C81_unbounded`, `C81_periodic`, `C81_images`, `C81_itself`, `C81_box`, `C81_cube`, `C82_pair`, `C82_velocity`, `C82_torque_stress`, `C82_sphere_bead`, `C82_own`, `C82_own_torque`, `C82_matrix`, `C82_grand`, `C82_answers`, `C82_images`, `C82_large`, `C82_mobility`, `C83_flow`, `C83_termwise`, `C83_motion`, `C83_own`, `C83_pair`, `C83_self`, `C84_flow`, `C84_code`, `C85_dissipates`, `C85_gain`, `C86_far`, `C86_near`, `C86_solvable`, `C87_gain`, `C88_stops`, `C88_setups`, `C88_endless`, `C89_renumber`, `C89_shipped`, `C90_untouched`, `C90_shipped`, `C90_first`, `C90_listed`, `C91_symmetric`, `C91_shipped`, `C91_plane`, `C92_assembly`, `C92_assembly_shipped`, `C92_falling`, `C92_falling_shipped`, `C92_ring`, `C92_symmetric`, `C92_pair`, `C93_apart`, `C93_walls`, `C93_answers`, `C94_arrows`, `C94_files`, `C94_exchanged`, `C94_shipped`, `C94_listed`, `C94_pair`, `C95_far`, `C95_near`, `C95_grand`, `C95_answers`, `C95_shipped`, `C95_jump`, `C96_array`, `C96_example_c`, `C96_symmetric`, `C96_fall`, `C96_alone`, `C96_pair`, `C96_brick`, `C97_converges`, `C97_shipped`, `C97_unique`, `C97_exists`, `C97_schemes`, `C97_listed`, `C98_depends`, `C98_shipped`, `C98_along`, `C98_limit`, `C98_listed`, `C98_default_range`, `C99_chain`, `C99_example_a`, `C99_fifteen`, `C99_fraction`, `C99_first_sphere`, `C99_box_writes`, `C99_example_c`, `C99_example_c_all`, `C100_A`, `C100_B`, `C100_C`, `C100_G`, `C100_H`, `C100_M`, `C100_error`, `C100_reflections`, `C101_swirl`, `C101_strength`, `C101_flow`, `C101_stokes`, `C101_unique`, `C101_held`, `C101_torques`, `C101_contact`, `C101_rate`, `C102_mobility`, `C102_torques`, `C102_resistance`, `C102_effect`, `C103_stokes`, `C103_sphere`, `C103_bead`, `C103_rest`

**[propext]** (3 theorems): `C47_right_table_partial`, `C47_missing`, `C81_frames`

**[propext, Quot.sound]** (2 theorems): `C35_count`, `C81_forces`

**[]** (1 theorems): `C47_inverted`

## Appendix B: every model definition and the source lines it models

Paths without a directory prefix `find_resistance_scalars/` or `docs/` are below `/repo/stokesian_dynamics/`.

* **Model/Arr.lean**: `NDMat` (functions/simulation_tools.py); `zeros` (functions/simulation_tools.py 174, 201); `slice` (functions/simulation_tools.py 238-245); `transpose` (functions/simulation_tools.py 239-246); `neg` (functions/simulation_tools.py 309); `sub` (functions/simulation_tools.py 265-267); `add` (functions/generate_grand_resistance_matrix.py 90 and 189); `smul` (functions/generate_R2Bexact.py 335, 337); `dot` (functions/simulation_tools.py 176, 179); `setBlock` (functions/simulation_tools.py 178-179); `toMatrix` (functions/simulation_tools.py 253, functions/timestepping.py 319); `inv` (functions/simulation_tools.py 253, 320, 403, 435, 496, 520); `solve` (functions/timestepping.py 319, 350, 381, 435, 492)
* **Model/Blocks.lean**: `Block` (functions/generate_Minfinity.py 377-498); `blocksOf` (functions/generate_Minfinity.py 373-498, functions/generate_R2Bexact.py 401-657)
* **Model/ClosePairs.lean**: `ClosePair` (functions/shared.py 516-517); `averageSize` (functions/shared.py 504); `distanceOverAverage` (functions/shared.py 503 and 505); `close_particles` (functions/shared.py 447 and 500-514)
* **Model/ClosePairsPeriodic.lean**: `unshearedPositions` (functions/shared.py 456-458); `shearedCentredBox` (functions/shared.py 463-467); `particlesInRadius` (functions/shared.py 470-476); `close_particles_periodic` (functions/shared.py 447-498)
* **Model/Ewald.lean**: `DD_rerfclr` (functions/generate_Minfinity_periodic.py 25-40); `Lap_rerfclr` (functions/generate_Minfinity_periodic.py 44-46); `DDD_rerfclr` (functions/generate_Minfinity_periodic.py 52-59); `DLap_rerfclr` (functions/generate_Minfinity_periodic.py 63-66); `DDDD_rerfclr` (functions/generate_Minfinity_periodic.py 72-87); `DDLap_rerfclr` (functions/generate_Minfinity_periodic.py 91-101); `LapLap_rerfclr` (functions/generate_Minfinity_periodic.py 105-108); `DDDLap_rerfclr` (functions/generate_Minfinity_periodic.py 114-126); `DLapLap_rerfclr` (functions/generate_Minfinity_periodic.py 130-136); `DDDDLap_rerfclr` (functions/generate_Minfinity_periodic.py 142-157); `DDLapLap_rerfclr` (functions/generate_Minfinity_periodic.py 161-169); `erfc` (functions/generate_Minfinity_periodic.py 177); `generate_erfcs` (functions/generate_Minfinity_periodic.py 174-184); `kron3traceless` (functions/generate_Minfinity_periodic.py 191-222); `J` (functions/generate_Minfinity_periodic.py 226-229); `D_J` (functions/generate_Minfinity_periodic.py 249-258); `R` (functions/generate_Minfinity_periodic.py 235-239); `K` (functions/generate_Minfinity_periodic.py 243-245); `DD_J` (functions/generate_Minfinity_periodic.py 264-276); `D_R` (functions/generate_Minfinity_periodic.py 280-286); `D_K` (functions/generate_Minfinity_periodic.py 290-293); `Lap_J` (functions/generate_Minfinity_periodic.py 297-303); `DLap_J` (functions/generate_Minfinity_periodic.py 309-317); `Lap_R` (functions/generate_Minfinity_periodic.py 321-326); `Lap_K` (functions/generate_Minfinity_periodic.py 330-333); `DDLap_J` (functions/generate_Minfinity_periodic.py 339-349); `DLap_K` (functions/generate_Minfinity_periodic.py 353-357); `ar` (functions/generate_Minfinity_periodic.py 364-373); `btr` (functions/generate_Minfinity_periodic.py 377-383); `cr` (functions/generate_Minfinity_periodic.py 387-394); `gtr` (functions/generate_Minfinity_periodic.py 398-405); `htr` (functions/generate_Minfinity_periodic.py 409-420); `mr` (functions/generate_Minfinity_periodic.py 424-433); `Jtilde` (functions/generate_Minfinity_periodic.py 441-444); `DD_Jtilde` (functions/generate_Minfinity_periodic.py 448-451); `Lap_Jtilde` (functions/generate_Minfinity_periodic.py 455-458); `D_Ktilde` (functions/generate_Minfinity_periodic.py 462-466); `DLap_Ktilde` (functions/generate_Minfinity_periodic.py 470-474); `D_Rtilde` (functions/generate_Minfinity_periodic.py 478-488); `aktilde` (functions/generate_Minfinity_periodic.py 494-503); `cktilde` (functions/generate_Minfinity_periodic.py 507-513); `htktilde` (functions/generate_Minfinity_periodic.py 517-529); `mktilde` (functions/generate_Minfinity_periodic.py 533-545); `Lattice` (functions/generate_Minfinity_periodic.py 826-868); `Lattice.Xdash` (functions/generate_Minfinity_periodic.py 853-854); `RRK` (functions/generate_Minfinity_periodic.py 870-872); `dot3` (functions/generate_Minfinity_periodic.py 570); `M11` (functions/generate_Minfinity_periodic.py 551-597); `M12` (functions/generate_Minfinity_periodic.py 601-619); `M13` (functions/generate_Minfinity_periodic.py 623-639); `M22` (functions/generate_Minfinity_periodic.py 643-677); `M23` (functions/generate_Minfinity_periodic.py 681-711); `M33` (functions/generate_Minfinity_periodic.py 715-757); `con_M13_row` (functions/generate_Minfinity_periodic.py 761-772); `con_M23_row` (functions/generate_Minfinity_periodic.py 776-787); `blkM11` (functions/generate_Minfinity_periodic.py 978-985, 1079-1086, 1115-1122, 1148-1155, 1168-1175, 1187-1194); `minfSphereSphere` (functions/generate_Minfinity_periodic.py 968-1064); `minfSphereBead` (functions/generate_Minfinity_periodic.py 1066-1101); `minfStep` (functions/generate_Minfinity_periodic.py 948-1194); `generate_Minfinity_loop` (functions/generate_Minfinity_periodic.py 909-1199); `gridpoints` (functions/generate_Minfinity_periodic.py 832-841); `gridVec` (functions/generate_Minfinity_periodic.py 847, 865); `k_basis_vectors` (functions/generate_Minfinity_periodic.py 861-864); `boxLattice` (functions/generate_Minfinity_periodic.py 825-868, functions/shared.py 18); `generate_Minfinity_periodic` (functions/generate_Minfinity_periodic.py 790-905)
* **Model/Examples.lean**: `savedCentres` (run_simulation.py 607, 619-620); `speeds_of_particles`; `dragEntry`; `drag_coefficient`; `example_a`; `example_c_phi`; `example_c_speed`
* **Model/Feed.lean**: `FeedError` (functions/shared.py 343); `feedRows` (functions/shared.py 339-341 and 363-365); `npMax` (functions/shared.py 342, 369); `npMin` (functions/shared.py 344, 373, 381); `feedClear` (functions/shared.py 385-389); `feedBeads` (functions/shared.py 338-411); `feed_particles_from_bottom` (functions/shared.py 318-424)
* **Model/Format.lean**: `pyDigits` (functions/shared.py 280, 284, 288, find_resistance_scalars/functions_general.py 59); `padLeft` (functions/shared.py 280, 284, 288); `divmodR` (functions/shared.py 277-279, 282-283, 286-287); `divmodN` (functions/shared.py 278-279, 283, 287); `roundHalfEven` (functions/shared.py 290); `format71f` (functions/shared.py 290); `format_elapsed_time` (functions/shared.py 274-290); `format_seconds` (find_resistance_scalars/functions_general.py 55-59)
* **Model/Frame.lean**: `Config` (functions/shared.py 195-196); `Vel` (run_simulation.py 225, 299-307); `Vel.blank` (run_simulation.py 222-225); `UserInput` (setups/inputs.py 190-193); `World` (resistance_scalars/data.py, setups/inputs.py 14-16, functions/generate_Minfinity_periodic.py, functions/generate_R2Bexact.py); `Scheme` (settings.py 76, run_simulation.py 586); `Settings` (settings.py 27-153, setups/positions.py 233); `isPeriodic` (functions/timestepping.py 282, run_simulation.py 181); `generate_grand_resistance_matrix_periodic` (functions/generate_grand_resistance_matrix.py 114-198); `Stage` (functions/timestepping.py 549-554); `stageResistance` (functions/timestepping.py 281-306); `generate_output_FTSUOE` (functions/timestepping.py 230-554); `asArr` (functions/timestepping.py 518-524); `asArrM` (functions/timestepping.py 520); `stageVel` (run_simulation.py 252-255 and 278-281); `zeroY` (run_simulation.py 256-257, 523-524); `wrapIf` (run_simulation.py 273-276, 294-297, 357-360, 372-375, 409-412, 424-427, 458-461, 473-476, 527-530, 550-553); `Forces` (run_simulation.py 309-313, 563-583); `StepResult` (run_simulation.py 591-593); `Outputs.forces` (run_simulation.py 309-313); `stepEulerAb2` (run_simulation.py 234-313); `rk4Move` (run_simulation.py 352-379, 404-431, 453-480); `blend` (run_simulation.py 510-517, 536-543); `blendRows` (run_simulation.py 563-574); `blendMats` (run_simulation.py 575-578); `stepRk4` (run_simulation.py 315-583); `timeStep` (run_simulation.py 234, 315, 585-586); `Saved` (run_simulation.py 655-659, 911-915); `State` (run_simulation.py 146-158); `savePositions` (run_simulation.py 601-625); `saveForces` (run_simulation.py 626-647); `savez` (run_simulation.py 655-659, 911-915); `saveTemp` (run_simulation.py 650-659); `generate_frame` (run_simulation.py 139-732); `runFrames` (run_simulation.py 896-901); `State.fresh` (run_simulation.py 71-79); `finalSave` (run_simulation.py 909-919); `program` (run_simulation.py 755-760 and 896-919); `defaultRots` (functions/shared.py 221-244, setups/positions.py 227-228); `resume` (setups/positions.py 214-233, run_simulation.py 791-801)
* **Model/GrandResistance.lean**: `dragDiagonal` (functions/generate_grand_resistance_matrix.py 63-68); `npDiag` (functions/generate_grand_resistance_matrix.py 63); `generate_grand_resistance_matrix` (functions/generate_grand_resistance_matrix.py 13-111)
* **Model/Graphics.lean**: `rotation_matrix` (functions/graphics.py 25-46); `from0topi` (functions/graphics.py 361-365); `plotSign` (functions/graphics.py 368-374); `plotNormal` (functions/graphics.py 377-380); `between0and1` (functions/graphics.py 85-92); `patchVertex` (functions/graphics.py 60, 73-77, 80-82); `screenDistance` (functions/graphics.py 118, 123, 129); `lineShade` (functions/graphics.py 117-132); `sphereColour` (functions/graphics.py 197-198); `npMaxList` (functions/graphics.py 221-222); `rowEntries` (functions/graphics.py 221-222); `beadForces` (functions/graphics.py 219-220); `beadRed` (functions/graphics.py 225-230, 232-237); `dumbbellColours` (functions/graphics.py 219-239); `dumbbellEnds` (functions/graphics.py 155-156); `Arrow` (functions/graphics.py 13-16); `plot_all_force_lines` (functions/graphics.py 256-283); `plot_all_lines` (functions/graphics.py 286-302, 305-320, 342-358); `tracesPath` (functions/graphics.py 145); `videoFrames` (plotting/make_video.py 73-76); `realFrame` (plotting/make_video.py 151); `forceFrame` (plotting/make_video.py 165-172); `videoGridpoints` (plotting/make_video.py 189-197); `videoBasis` (plotting/make_video.py 200-203); `videoImages` (plotting/make_video.py 182-185, 204, 232-234); `videoCorners` (plotting/make_video.py 207-220); `VideoFrame` (plotting/make_video.py 256-263, 274-281); `overImages` (plotting/make_video.py 236-239, 245-255); `video_frame` (plotting/make_video.py 137-281); `plotPositions` (plotting/plot_positions.py 43-61, 98-106)
* **Model/Green.lean**: `kron` (functions/generate_Minfinity.py 18, 44); `kronkron` (functions/generate_Minfinity.py 19-43, 45); `levi` (functions/shared.py 53-61); `norm3` (functions/shared.py 47-50); `oseenJ` (functions/generate_Minfinity.py 50-58); `D_J` (functions/generate_Minfinity.py 86-89); `rotletR` (functions/generate_Minfinity.py 64-76); `tensorK` (functions/generate_Minfinity.py 80-82); `DD_J` (functions/generate_Minfinity.py 95-107); `D_R` (functions/generate_Minfinity.py 111-115); `D_K` (functions/generate_Minfinity.py 119-121); `Lap_J` (functions/generate_Minfinity.py 125-127); `DLap_J` (functions/generate_Minfinity.py 133-137); `Lap_R` (functions/generate_Minfinity.py 141-145); `Lap_K` (functions/generate_Minfinity.py 149-151); `DLap_K` (functions/generate_Minfinity.py 157-169); `eps10` (functions/generate_Minfinity.py 175, 185, 195, 205, 218, 397); `M11` (functions/generate_Minfinity.py 173-179); `M12` (functions/generate_Minfinity.py 183-188); `M13` (functions/generate_Minfinity.py 192-199); `M22` (functions/generate_Minfinity.py 203-211); `M23` (functions/generate_Minfinity.py 215-225); `M33` (functions/generate_Minfinity.py 229-234); `con_M13_row` (functions/generate_Minfinity.py 238-249); `con_M23_row` (functions/generate_Minfinity.py 253-264); `cond_idx` (functions/shared.py 21); `cond_E` (functions/shared.py 22-29); `condense55` (functions/generate_Minfinity.py 401-406, functions/generate_R2Bexact.py 449-453 and 490-496); `condense53` (functions/generate_Minfinity.py 450-454, 468-472)
* **Model/Inputs.lean**: `ShearFlow` (setups/functions_inputs.py 145-146, 178-179); `constant_shear` (setups/functions_inputs.py 149-179); `oscillatory_shear` (setups/functions_inputs.py 84-146); `repulsionPairs` (setups/functions_inputs.py 34-48); `repulsionLength` (setups/functions_inputs.py 51-52 and 55-68); `repulsionStep` (setups/functions_inputs.py 51-73); `repulsion_forces` (setups/functions_inputs.py 11-81)
* **Model/Layout.lean**: `PosData` (functions/shared.py 192-218); `PosData.beadPos` (functions/generate_Minfinity.py 288-290); `PosData.beadSize` (functions/generate_Minfinity.py 291); `is_sphere` (functions/shared.py 262-263); `is_dumbbell_bead_1` (functions/shared.py 252-253); `is_dumbbell_bead_2` (functions/shared.py 257-258); `Coords` (functions/shared.py 186-189); `submatrix_coords_tuple` (functions/shared.py 149-189); `pairs` (functions/generate_Minfinity.py 353-355); `writeAt` (functions/generate_Minfinity.py 377-380); `symmetrise` (functions/generate_Minfinity.py 501, functions/generate_R2Bexact.py 661); `f3` (functions/generate_Minfinity.py 378-380); `f5` (functions/generate_Minfinity.py 401-402)
* **Model/Midfield.lean**: `PairScalars` (generate_scalars_midfield.py 194-204 and 228-238); `four` (generate_scalars_midfield.py 194-204); `PairScalars.toList` (generate_scalars_midfield.py 194-204 and 320-330); `FCase` (generate_scalars_midfield.py 91-104); `rp` (generate_scalars_midfield.py 108); `rm` (generate_scalars_midfield.py 109); `r2` (generate_scalars_midfield.py 110); `reorder` (generate_scalars_midfield.py 111-133); `reorderedUOS` (generate_scalars_midfield.py 135); `quad`; `find_dim_kim_mobility_scalars` (generate_scalars_midfield.py 68-211); `npInv` (generate_scalars_midfield.py 255, 256 and 258); `matrix_yabc` (generate_scalars_midfield.py 245-248); `matrix_ygh` (generate_scalars_midfield.py 249-250); `mat2` (generate_scalars_midfield.py 240-253 and 298-299); `mat2t` (generate_scalars_midfield.py 243, 251, 252); `convert_dim_kim_mobility_to_dim_resistance` (generate_scalars_midfield.py 214-331); `nondimensionalise_scalars` (generate_scalars_midfield.py 334-346); `resistance_scales` (generate_scalars_midfield.py 367); `minus_in_B_and_G` (generate_scalars_midfield.py 392); `lam_scales_r` (generate_scalars_midfield.py 425-427); `generalColumn` (generate_scalars_midfield.py 409-413); `reciprocalColumn` (generate_scalars_midfield.py 436-442); `XYZ_column` (generate_scalars_midfield.py 374-381)
* **Model/Minfinity.lean**: `minfRS` (functions/generate_Minfinity.py 358-365); `blkM11` (functions/generate_Minfinity.py 378-380, 441-443, 461-463, 479-481, 488-490, 496-498); `minfSphereSphere` (functions/generate_Minfinity.py 373-434); `minfSphereBead` (functions/generate_Minfinity.py 436-454); `minfStep` (functions/generate_Minfinity.py 353-498, settings.py); `generate_Minfinity_loop` (functions/generate_Minfinity.py 331-503); `dumbbellLEntries` (functions/generate_Minfinity.py 311-319); `cooMatrix` (functions/generate_Minfinity.py 320-322, functions/generate_R2Bexact.py 330-332); `generate_Minfinity` (functions/generate_Minfinity.py 267-327)
* **Model/Nearfield.lean**: `kron` (functions_nearfield.py 36-39); `binom` (functions_nearfield.py 42-45); `Parity`; `sumover` (functions_nearfield.py 58-61 and 89-92); `intermediate_sum` (functions_nearfield.py 48-68); `intermediate_sum_no_f0_coeff` (functions_nearfield.py 71-98); `Z` (functions_nearfield.py 101-104); `Px` (functions_nearfield.py 109-123 and 707-721); `Vx` (functions_nearfield.py 126-135 and 724-733); `Py` (functions_nearfield.py 213-229, 398-414 and 824-840); `Qy` (functions_nearfield.py 232-243, 417-428 and 843-854); `Vy` (functions_nearfield.py 246-255, 431-440 and 857-866); `Pzm` (functions_nearfield.py 939-955); `Qzm` (functions_nearfield.py 958-969); `Vzm` (functions_nearfield.py 972-981); `Pxa` (functions_nearfield.py 109-123); `Pya` (functions_nearfield.py 213-229); `Qya` (functions_nearfield.py 232-243); `Pyc` (functions_nearfield.py 398-414); `Qyc` (functions_nearfield.py 417-428); `Pxm` (functions_nearfield.py 707-721); `Pym` (functions_nearfield.py 824-840); `Fxa` (functions_nearfield.py 138-141); `G1xa` (functions_nearfield.py 144-147); `G2xa` (functions_nearfield.py 150-153); `G3xa` (functions_nearfield.py 156-159); `AX11` (functions_nearfield.py 162-174); `AX12` (functions_nearfield.py 177-186); `X11A` (functions_nearfield.py 189-197); `X12A` (functions_nearfield.py 200-208); `Fya` (functions_nearfield.py 258-261); `G2ya` (functions_nearfield.py 264-267); `G3ya` (functions_nearfield.py 270-273); `AY11` (functions_nearfield.py 276-283); `AY12` (functions_nearfield.py 286-296); `Y11A` (functions_nearfield.py 299-306); `Y12A` (functions_nearfield.py 309-316); `Fyb` (functions_nearfield.py 321-324); `G2yb` (functions_nearfield.py 327-330); `G3yb` (functions_nearfield.py 333-336); `BY11` (functions_nearfield.py 339-345); `BY12` (functions_nearfield.py 348-355); `Y11B` (functions_nearfield.py 358-365); `Y12B` (functions_nearfield.py 368-375); `zeta3` (functions_nearfield.py 384 and 392); `X11C` (functions_nearfield.py 380-385); `X12C` (functions_nearfield.py 388-393); `Fyc` (functions_nearfield.py 443-446); `G2yc` (functions_nearfield.py 449-452); `G3yc` (functions_nearfield.py 455-458); `G4yc` (functions_nearfield.py 461-464); `G5yc` (functions_nearfield.py 467-470); `CY11` (functions_nearfield.py 473-478); `CY12` (functions_nearfield.py 481-488); `Y11C` (functions_nearfield.py 491-498); `Y12C` (functions_nearfield.py 501-508); `Fxg` (functions_nearfield.py 513-516); `G1xg` (functions_nearfield.py 519-522); `G2xg` (functions_nearfield.py 525-528); `G3xg` (functions_nearfield.py 531-534); `GX11` (functions_nearfield.py 537-542); `GX12` (functions_nearfield.py 545-551); `X11G` (functions_nearfield.py 554-562); `X12G` (functions_nearfield.py 565-573); `Fyg` (functions_nearfield.py 578-581); `G2yg` (functions_nearfield.py 584-587); `G3yg` (functions_nearfield.py 590-593); `GY11` (functions_nearfield.py 596-603); `GY12` (functions_nearfield.py 606-613); `Y11G` (functions_nearfield.py 616-623); `Y12G` (functions_nearfield.py 626-633); `Fyh` (functions_nearfield.py 638-641); `G2yh` (functions_nearfield.py 644-647); `G3yh` (functions_nearfield.py 650-652); `G5yh` (functions_nearfield.py 655-657); `G6yh` (functions_nearfield.py 660-662); `HY11` (functions_nearfield.py 665-670); `HY12` (functions_nearfield.py 673-681); `Y11H` (functions_nearfield.py 684-691); `Y12H` (functions_nearfield.py 694-701); `Fxm` (functions_nearfield.py 736-739); `G1xm` (functions_nearfield.py 742-745); `G2xm` (functions_nearfield.py 748-751); `G3xm` (functions_nearfield.py 754-757); `G4xm` (functions_nearfield.py 760-763); `G5xm` (functions_nearfield.py 766-769); `G6xm` (functions_nearfield.py 772-775); `MX11` (functions_nearfield.py 778-784); `MX12` (functions_nearfield.py 787-796); `X11M` (functions_nearfield.py 799-807); `X12M` (functions_nearfield.py 810-818); `Fym` (functions_nearfield.py 869-872); `G2ym` (functions_nearfield.py 875-878); `G3ym` (functions_nearfield.py 881-884); `G5ym` (functions_nearfield.py 887-890); `G6ym` (functions_nearfield.py 893-896); `MY11` (functions_nearfield.py 899-904); `MY12` (functions_nearfield.py 907-914); `Y11M` (functions_nearfield.py 917-924); `Y12M` (functions_nearfield.py 927-934); `Fzm_with_sum_coeff` (functions_nearfield.py 990-1002); `G3zm` (functions_nearfield.py 1005-1008); `MZ11` (functions_nearfield.py 1011-1018); `MZ12` (functions_nearfield.py 1021-1030); `Z11M` (functions_nearfield.py 1033-1039); `Z12M` (functions_nearfield.py 1042-1048); `scalar_functions` (find_resistance_scalars/generate_scalars_nearfield.py 63-66); `with_reciprocals` (find_resistance_scalars/generate_scalars_nearfield.py 71-73); `nearfield_table` (find_resistance_scalars/generate_scalars_nearfield.py 78-93)
* **Model/Placement.lean**: `PlaceError` (functions_positions.py 48, 109); `Place`; `random_point_in_box` (functions_positions.py 12-16); `overlaps` (functions_positions.py 19-21); `overlaps_periodic` (functions_positions.py 24-26); `countClose` (functions_positions.py 47-50, 108-111, 113-116, 129-132, 134-137); `proposeSphere` (functions_positions.py 43-59); `placeSpheres` (functions_positions.py 42-61); `minElementDistance` (functions_positions.py 67-69, 155-157, 296-297); `randomise_spheres` (functions_positions.py 29-84); `drawAngles` (functions_positions.py 120-123); `bead2At` (functions_positions.py 124-127); `DumbArgs` (functions_positions.py 87-90, 192-195); `DumbArgs.countSpheres` (functions_positions.py 108-111 and 129-132); `DumbArgs.countBeads` (functions_positions.py 113-116 and 134-137); `DumbArgs.countBoth` (functions_positions.py 108-116 and 130-138); `DumbArgs.inBox` (functions_positions.py 128-129); `tryBead2` (functions_positions.py 119-140); `proposeDumbbell` (functions_positions.py 104-142); `placeDumbbells` (functions_positions.py 103-149); `rebuiltBeads` (functions_positions.py 152-153 and 294-295); `randomise_dumbbells` (functions_positions.py 87-179); `setup5` (setups/positions.py 96-107); `setup6Walls` (setups/positions.py 119-127); `setup6Args` (setups/positions.py 130-135, functions_positions.py 89-90)
* **Model/PlacementPeriodic.lean**: `countClosePeriodic` (functions_positions.py 218-223, 225-230, 246-252, 254-260); `DumbArgs.shifts` (functions_positions.py 205, 215-217, 243-245, 269-271); `DumbArgs.countShift` (functions_positions.py 218-230 and 246-260); `DumbArgs.countImages` (functions_positions.py 215-230 and 243-260); `tryBead2Periodic` (functions_positions.py 233-263); `proposeDumbbellPeriodic` (functions_positions.py 211-265); `DumbArgs.alarm` (functions_positions.py 267-278); `DumbArgs.modPeriods` (functions_positions.py 289); `DumbArgs.wrapCentre` (functions_positions.py 287-290); `placeDumbbellsPeriodic` (functions_positions.py 210-290); `randomise_dumbbells_periodic` (functions_positions.py 192-326)
* **Model/Polygon.lean**: `PolygonState` (functions_positions.py 387-397); `polygonPass` (functions_positions.py 391-397); `point_inside_polygon` (functions_positions.py 383-399); `QuadArgs` (functions_positions.py 329-331); `columnMin` (functions_positions.py 340); `columnMax` (functions_positions.py 342); `QuadArgs.rejected` (functions_positions.py 351-368); `proposeInside` (functions_positions.py 346-368); `placeInside` (functions_positions.py 345-372); `beadsInside` (functions_positions.py 337-372); `randomise_beads_inside_quadrilateral` (functions_positions.py 329-380)
* **Model/R2B.lean**: `L1` (functions/generate_R2Bexact.py 27-29); `L2` (functions/generate_R2Bexact.py 33-35); `L3` (functions/generate_R2Bexact.py 39-44); `L4` (functions/generate_R2Bexact.py 48-50); `L5` (functions/generate_R2Bexact.py 54-56); `L6` (functions/generate_R2Bexact.py 60-65); `L7` (functions/generate_R2Bexact.py 69-73); `L8` (functions/generate_R2Bexact.py 77-83); `L9` (functions/generate_R2Bexact.py 87-98); `ScalarTable` (resistance_scalars/data.py 13-29); `npInterp` (functions/generate_R2Bexact.py 251); `XYZ` (functions/generate_R2Bexact.py 239-251); `Af` (functions/generate_R2Bexact.py 102-109, 157-161); `Bf` (functions/generate_R2Bexact.py 112-114, 165-168); `Cf` (functions/generate_R2Bexact.py 117-124, 172-176); `Gf` (functions/generate_R2Bexact.py 127-134, 180-185); `Hf` (functions/generate_R2Bexact.py 137-139, 189-193); `Mf` (functions/generate_R2Bexact.py 142-154, 197-205); `con_Gf_row` (functions/generate_R2Bexact.py 209-220); `con_Hf_row` (functions/generate_R2Bexact.py 224-235); `isclose` (functions/generate_R2Bexact.py 377-379); `lamIndex` (functions/generate_R2Bexact.py 377-379); `Nearby` (functions/generate_R2Bexact.py 402-404); `nearbyBeads` (functions/generate_R2Bexact.py 402-420); `Neighbour` (functions/generate_R2Bexact.py 429-434); `neighbours` (functions/generate_R2Bexact.py 428-434); `nbSum` (functions/generate_R2Bexact.py 421-454); `r2bSelfSphere` (functions/generate_R2Bexact.py 401-466); `r2bSphereSphere` (functions/generate_R2Bexact.py 468-524); `r2bSphereBead` (functions/generate_R2Bexact.py 526-542); `r2bSelfBead` (functions/generate_R2Bexact.py 564-598 and 617-651); `r2bBeadBead` (functions/generate_R2Bexact.py 599-604, 609-613 and 652-657); `r2bStep` (functions/generate_R2Bexact.py 369-657); `generate_R2Bexact_loop` (functions/generate_R2Bexact.py 340-663); `resistanceLEntries` (functions/generate_R2Bexact.py 320-329); `R2BexactOfPairs` (functions/generate_R2Bexact.py 305-337); `generate_R2Bexact` (functions/generate_R2Bexact.py 260-337)
* **Model/R2BPeriodic.lean**: `generate_R2Bexact_periodic` (functions/generate_R2Bexact.py 260-337); `boxWorld` (functions/generate_grand_resistance_matrix.py 154-157 and 183-187, settings.py 94)
* **Model/Scalars.lean**: `pairPosdata` (subtract_R2Binfinity_from_scalars.py 36-45); `extractScalar` (subtract_R2Binfinity_from_scalars.py 49-80); `subtractCells` (subtract_R2Binfinity_from_scalars.py 82-103); `subtractR2Binfinity` (subtract_R2Binfinity_from_scalars.py 34-103)
* **Model/Setups.lean**: `SetupError` (functions/shared.py 299-309, setups/positions.py 176-178); `SetupRows` (setups/positions.py 180-181); `SetupRows.config` (setups/positions.py 180-182, functions/shared.py 195-199, setups/positions.py); `setup1` (setups/positions.py 42-49); `setup2` (setups/positions.py 58-64); `simple_cubic_8` (setups/functions_positions.py 404-408); `setup3` (setups/positions.py 73-82); `setup4` (setups/positions.py 87-94); `setup5Rows` (setups/positions.py 99-112); `setup6Rows` (setups/positions.py 117-135); `setup7` (setups/positions.py 143-166); `same_setup_as` (functions/shared.py 293-315); `pos_setup` (setups/positions.py 21-182, functions/shared.py 293)
* **Model/ShippedData.lean**: `shipped_1_100` (resistance_scalars/data.py 26-33); `shipped_1_10` (resistance_scalars/data.py 26-33); `shipped_1` (resistance_scalars/data.py 26-33); `shipped_10` (resistance_scalars/data.py 26-33); `shipped_100` (resistance_scalars/data.py 26-33)
* **Model/ShippedInputs.lean**: `givenRow` (setups/inputs.py 89, 90, 92, 93, 95, 96, 98, 99, 101, 103, 104); `givenMat` (setups/inputs.py 91, 97, 102); `pippaRow` (functions/simulation_tools.py 31, 32, 38-41, 47, 48); `pippaMat` (functions/simulation_tools.py 33-36, 42-45); `empty_vectors` (functions/simulation_tools.py 10-49); `defaultInputs` (setups/inputs.py 88-104); `defaultUserInput` (setups/inputs.py 75-107); `simple_cubic_8_box` (setups/functions_positions.py 409-410); `springForce` (setups/inputs.py 130-136); `input_ftsuoe` (setups/inputs.py 14-193, setups/functions_inputs.py 74-80)
* **Model/ShippedTable.lean**: `shippedColumn` (resistance_scalars/data.py 26-33); `shippedRaw` (resistance_scalars/data.py 26-33); `shippedDist` (resistance_scalars/data.py 13); `shippedTable` (resistance_scalars/data.py 13-33)
* **Model/SimTools.lean**: `hs3p1` (functions/shared.py 14-16); `hs3m1` (functions/shared.py 17); `s2` (functions/shared.py 15); `contraction` (functions/shared.py 65-80); `Vec3` (functions/simulation_tools.py 31); `Mat3` (functions/simulation_tools.py 34); `Vec5` (functions/simulation_tools.py 37); `condenseOne` (functions/simulation_tools.py 57-64); `condense` (functions/simulation_tools.py 52-65); `condense_and_flatten` (functions/simulation_tools.py 69-78); `uncondenseOne` (functions/simulation_tools.py 87-97); `uncondense` (functions/simulation_tools.py 81-98); `flatten3` (functions/simulation_tools.py 120, 121, 128-132); `construct_force_vector_from_fts` (functions/simulation_tools.py 101-134); `reshape3` (functions/simulation_tools.py 150, 151, 153, 154); `reshape5` (functions/simulation_tools.py 152); `GrandParts` (functions/simulation_tools.py 156-157); `deconstruct_velocity_vector_for_fts` (functions/simulation_tools.py 137-157); `blk` (functions/simulation_tools.py 176-179); `vecmat_mat_vecmat` (functions/simulation_tools.py 161-180); `vec_mat_cross` (functions/simulation_tools.py 184-216); `fts_to_fte_matrix` (functions/simulation_tools.py 219-270); `fte_to_ufte_matrix` (functions/simulation_tools.py 273-338); `ufte_to_ufteu_step1` (functions/simulation_tools.py 355-413); `ufte_to_ufteu_step2` (functions/simulation_tools.py 415-447); `ufte_to_ufteu_matrix` (functions/simulation_tools.py 341-447); `fts_to_duf_step1` (functions/simulation_tools.py 463-506); `fts_to_duf_step2` (functions/simulation_tools.py 508-532); `fts_to_duf_matrix` (functions/simulation_tools.py 450-532)
* **Model/Solve.lean**: `OVec3` (functions/simulation_tools.py 30-31); `OMat3` (functions/simulation_tools.py 32-35); `isPippa` (functions/timestepping.py 360); `countPippa` (functions/timestepping.py 360, 408, 410, 475); `floats3` (functions/timestepping.py 319, 350, 372, 428, 488); `floats33` (functions/simulation_tools.py 77, functions/timestepping.py 313-318); `floatsL`; `Inputs` (setups/inputs.py 190-193); `constructForceVector?` (functions/simulation_tools.py 101-134, functions/timestepping.py 319, 350, 372, 428, 488); `Outputs` (functions/timestepping.py 549-550); `InputForm` (functions/timestepping.py 312, 327, 359, 406, 473); `solveFTS` (functions/timestepping.py 312-325); `solveFTE` (functions/timestepping.py 327-357 and 518-524); `solveUFTE` (functions/timestepping.py 359-404 and 518-524); `solveUFTEU` (functions/timestepping.py 406-471 and 518-524); `solveDUF` (functions/timestepping.py 473-516 and 518-524); `solveForm` (functions/timestepping.py 308-524); `formAllowed` (run_simulation.py 744-751)
* **Model/Startup.lean**: `readDigits` (settings.py 52, 56 and 58); `pySpace` (settings.py 52, 56 and 58); `pySigned` (settings.py 52, 56 and 58); `pyInt` (settings.py 52, 56 and 58); `CliSettings` (settings.py 25-36 and 127); `defaultSettings` (settings.py 25-36); `readArguments` (settings.py 41-58); `settingsOf` (settings.py 25-62); `addReciprocals` (resistance_scalars/data.py 17-21); `lamRangeWithReciprocals` (resistance_scalars/data.py 16-22); `ScalarFile` (resistance_scalars/data.py 27 and 29); `scalarFile` (resistance_scalars/data.py 26-29); `loadScalars` (resistance_scalars/data.py 26-36); `StartError` (run_simulation.py 744-770); `startUp` (run_simulation.py 735-770, functions/shared.py 32-37)
* **Model/Tables.lean**: `midfieldCell` (find_resistance_scalars/generate_scalars_midfield.py 408-442); `midfield_table` (find_resistance_scalars/generate_scalars_midfield.py 350-442); `combine_scalars` (find_resistance_scalars/combine_scalars.py); `dragRinfinity` (find_resistance_scalars/subtract_R2Binfinitydrag_from_scalars.py 54-59); `subtractR2Binfinitydrag` (find_resistance_scalars/subtract_R2Binfinitydrag_from_scalars.py 38-116)
* **Model/Timestep.lean**: `euler_timestep` (functions/timestepping.py 23-25); `ab2_timestep` (functions/timestepping.py 28-30); `did_something_go_wrong_with_dumbells` (functions/timestepping.py 33-69); `npCross` (functions/timestepping.py 107-108, 686, 708, 710); `matVec3` (functions/timestepping.py 120, 137, 690, 714, 716); `vecMat3` (functions/timestepping.py 675-677); `inv3` (functions/timestepping.py 120, 676); `npAllclose3` (functions/timestepping.py 103); `rot_matrix` (functions/timestepping.py 84 and 99-109); `rotate_arrow` (functions/timestepping.py 84 and 115-138); `Rots` (functions/shared.py 238-244); `euler_timestep_rotation` (functions/timestepping.py 73-139); `ab2_timestep_rotation` (functions/timestepping.py 142-153); `add_background_flow_spheres` (functions/timestepping.py 681-699); `add_background_flow_dumbbells` (functions/timestepping.py 702-725); `npMod` (functions/shared.py 434, functions/timestepping.py 675); `basis_canonical` (functions/timestepping.py 671, functions/shared.py 452); `shear_basis_vectors` (functions/shared.py 428-437); `wrap_around` (functions/timestepping.py 653-678); `dueFrame` (functions/timestepping.py 574); `meanOf` (functions/timestepping.py 581, 589, 596); `calculate_time_left` (functions/timestepping.py 557-618)
