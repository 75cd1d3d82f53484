{"id": "C01", "title": "Condensing and expanding stresslets/strain rates loses nothing", "statement": "For every list of symmetric traceless 3x3 matrices, expanding the condensed 5-vectors returns exactly the matrices that were condensed; and for every list of 5-vectors, expanding gives symmetric traceless matrices whose condensation is the original list.", "quantifier": "all numbers of spheres, all symmetric traceless 3x3 real matrices, all real 5-vectors", "why_tests_cant": "The identity is between real-valued functions with irrational coefficients over an uncountable domain; sampled matrices with a tolerance cannot exclude a coefficient that is slightly wrong or a transposed index that happens to agree on the samples.", "anchors": ["stokesian_dynamics/functions/simulation_tools.py:condense", "stokesian_dynamics/functions/simulation_tools.py:condense_and_flatten", "stokesian_dynamics/functions/simulation_tools.py:uncondense", "stokesian_dynamics/functions/shared.py:contraction"]}
{"id": "C02", "title": "Condensation preserves power", "statement": "For every pair of symmetric traceless matrices S and E the dot product of their condensed 5-vectors equals the double contraction S:E, so the power F.U+T.O+S:E of any input/output pair is the plain dot product of the grand vectors.", "quantifier": "all pairs of symmetric traceless matrices, all numbers of spheres", "why_tests_cant": "An inner-product identity over all real matrices; finite samples only show it at points.", "anchors": ["stokesian_dynamics/functions/simulation_tools.py:condense", "stokesian_dynamics/functions/shared.py:contraction", "stokesian_dynamics/functions/shared.py:cond_E"]}
{"id": "C03", "title": "Grand vectors have one documented layout and round-trip", "statement": "Packing forces, torques, symmetric traceless stresslets, dumbbell forces and dumbbell force differences into a grand vector and unpacking a vector of that layout returns each particle's own values, for any mixture of spheres and dumbbells including none of one kind; the packed vector has length 11*spheres + 6*dumbbells.", "quantifier": "all sphere and dumbbell counts (including zero), all real inputs", "why_tests_cant": "Layout errors appear only for particular count combinations; the counts are unbounded.", "anchors": ["stokesian_dynamics/functions/simulation_tools.py:construct_force_vector_from_fts", "stokesian_dynamics/functions/simulation_tools.py:deconstruct_velocity_vector_for_fts"]}
{"id": "C04", "title": "Every entry of the grand matrix belongs to exactly one pair block", "statement": "For any numbers of spheres and dumbbells, the row ranges assigned to particles tile the index range [0, 11*spheres+6*dumbbells) without gap or overlap, and every entry on or above the diagonal is written by exactly one block of exactly one pair of the assembly loop, so no interaction is dropped or overwritten by another (for a particle paired with itself, blocks that share one destination count once).", "quantifier": "all sphere/dumbbell counts, all pairs of particles, all matrix entries", "why_tests_cant": "The count parameters are unbounded and an off-by-one overlap between blocks only shows for certain counts.", "anchors": ["stokesian_dynamics/functions/shared.py:submatrix_coords_tuple", "stokesian_dynamics/functions/shared.py:submatrix_coords", "stokesian_dynamics/functions/generate_Minfinity.py:generate_Minfinity_loop", "stokesian_dynamics/functions/generate_R2Bexact.py:generate_R2Bexact_loop"]}
{"id": "C05", "title": "FTE solve returns the physical answer", "statement": "When forces, torques and rate of strain are supplied (fte), the returned velocities, angular velocities, stresslets and dumbbell velocities together with the supplied quantities satisfy the grand resistance relation R.(U,O,E,Ub,HalfDUb) = (F,T,S,Fb,DFb), and supplied quantities are returned unchanged.", "quantifier": "all sphere counts > 0, all dumbbell counts, all symmetric resistance matrices with the needed blocks invertible, all inputs", "why_tests_cant": "Block elimination correctness is an algebraic identity over all matrices of all sizes.", "anchors": ["stokesian_dynamics/functions/simulation_tools.py:fts_to_fte_matrix", "stokesian_dynamics/functions/simulation_tools.py:vecmat_mat_vecmat", "stokesian_dynamics/functions/simulation_tools.py:vec_mat_cross", "stokesian_dynamics/functions/timestepping.py:generate_output_FTSUOE"]}
{"id": "C06", "title": "UFTE solve returns the physical answer", "statement": "When some (first-numbered) spheres have prescribed velocities and the rest prescribed forces (ufte), the output forces on the fixed spheres, velocities of the free ones, angular velocities, stresslets and dumbbell velocities satisfy the same grand resistance relation, and every prescribed value is returned unchanged.", "quantifier": "all counts of spheres, fixed spheres and dumbbells, all admissible resistance matrices, all inputs", "why_tests_cant": "As C05, with an additional count parameter and sign-asymmetric intermediate matrices; samples cannot cover the family.", "anchors": ["stokesian_dynamics/functions/simulation_tools.py:fte_to_ufte_matrix", "stokesian_dynamics/functions/timestepping.py:generate_output_FTSUOE"]}
{"id": "C07", "title": "UFTEU solve returns the physical answer", "statement": "When some first-numbered spheres and some first-numbered dumbbells have prescribed velocities (ufteu), the outputs and inputs together satisfy the grand resistance relation and prescribed values are returned unchanged.", "quantifier": "all counts of spheres, fixed spheres, dumbbells and fixed dumbbells, all admissible resistance matrices, all inputs", "why_tests_cant": "As C06 with two further elimination steps.", "anchors": ["stokesian_dynamics/functions/simulation_tools.py:ufte_to_ufteu_matrix", "stokesian_dynamics/functions/timestepping.py:generate_output_FTSUOE"]}
{"id": "C08", "title": "DUF solve returns the physical answer", "statement": "For dumbbell-only simulations with some dumbbells at prescribed velocities (duf), the outputs and inputs together satisfy the grand resistance relation and prescribed values are returned unchanged.", "quantifier": "all counts of dumbbells and fixed dumbbells, all admissible resistance matrices, all inputs", "why_tests_cant": "As C06.", "anchors": ["stokesian_dynamics/functions/simulation_tools.py:fts_to_duf_matrix", "stokesian_dynamics/functions/timestepping.py:generate_output_FTSUOE"]}
{"id": "C09", "title": "No input form can hit a singular matrix when the resistance matrix is positive definite", "statement": "If the grand resistance matrix is symmetric positive definite, then for every input form and every number of fixed particles each intermediate inverse exists, the final linear solve has exactly one solution, and so all input forms agree: feeding the outputs of one form as inputs of another reproduces the same motion.", "quantifier": "all symmetric positive definite matrices of every size, all input forms, all fixed counts", "why_tests_cant": "Quantifies over all positive definite matrices; a test can only try particular ones.", "anchors": ["stokesian_dynamics/functions/simulation_tools.py:fts_to_fte_matrix", "stokesian_dynamics/functions/simulation_tools.py:fte_to_ufte_matrix", "stokesian_dynamics/functions/simulation_tools.py:ufte_to_ufteu_matrix", "stokesian_dynamics/functions/simulation_tools.py:fts_to_duf_matrix", "stokesian_dynamics/functions/timestepping.py:generate_output_FTSUOE"]}
{"id": "C10", "title": "Missing or misnumbered prescribed values are never used silently", "statement": "In ufte, ufteu and duf forms, the solve only proceeds if the first k spheres (dumbbells) have a prescribed velocity and all the others a prescribed force, where k is the number with a prescribed velocity; if any required value is still the placeholder, the run stops with an error instead of producing numbers.", "quantifier": "all assignments of placeholder/number to every entry of the input lists, all counts", "why_tests_cant": "Exponentially many placements of the placeholder; tests try a few.", "anchors": ["stokesian_dynamics/functions/timestepping.py:generate_output_FTSUOE", "stokesian_dynamics/functions/simulation_tools.py:empty_vectors", "stokesian_dynamics/functions/simulation_tools.py:construct_force_vector_from_fts", "stokesian_dynamics/setups/inputs.py:input_ftsuoe"]}
{"id": "C11", "title": "Dumbbell coordinates are consistent between mobility and resistance parts", "statement": "The far-field mobility matrix and the near-field resistance matrix use the same change of variables for dumbbells: U=(U1+U2)/2, HalfDU=(U2-U1)/2 on the velocity side and F=F1+F2, DF=F2-F1 on the force side, so that inverting the far-field matrix in dumbbell coordinates equals transforming the bead-coordinate inverse, and power is preserved.", "quantifier": "all numbers of spheres and dumbbells, all bead-coordinate matrices, all bead forces and velocities", "why_tests_cant": "An identity for all matrices of all sizes.", "anchors": ["stokesian_dynamics/functions/generate_Minfinity.py:generate_Minfinity", "stokesian_dynamics/functions/generate_R2Bexact.py:generate_R2Bexact", "stokesian_dynamics/setups/inputs.py:input_ftsuoe"]}
{"id": "C12", "title": "The far-field mobility matrix is symmetric and translation invariant", "statement": "For every configuration of spheres and dumbbells the far-field mobility matrix is symmetric, and shifting all particles by a common vector does not change it.", "quantifier": "all configurations, sizes, viscosities, shift vectors", "why_tests_cant": "Ranges over all configurations of unboundedly many particles.", "anchors": ["stokesian_dynamics/functions/generate_Minfinity.py:generate_Minfinity", "stokesian_dynamics/functions/generate_Minfinity.py:generate_Minfinity_loop"]}
{"id": "C13", "title": "Mirror blocks are right: pair (j,i) is the transpose-reciprocal of pair (i,j)", "statement": "For two spheres at any separation and any sizes, the coupling blocks stored for 'particle 2 due to particle 1' (including those obtained by the equal-size sign shortcut) are those the closed-form expressions give when the two particles swap roles, and the force/torque/stresslet blocks are reciprocal: velocity-type response of 1 to load on 2 is the transpose of that of 2 to load on 1.", "quantifier": "all displacement vectors, all pairs of radii, all viscosities", "why_tests_cant": "Identity over all real displacements and radii.", "anchors": ["stokesian_dynamics/functions/generate_Minfinity.py:M11", "stokesian_dynamics/functions/generate_Minfinity.py:M12", "stokesian_dynamics/functions/generate_Minfinity.py:M13", "stokesian_dynamics/functions/generate_Minfinity.py:M22", "stokesian_dynamics/functions/generate_Minfinity.py:M23", "stokesian_dynamics/functions/generate_Minfinity.py:M33", "stokesian_dynamics/functions/generate_Minfinity.py:generate_Minfinity_loop"]}
{"id": "C14", "title": "The Green's function derivatives are the derivatives they claim to be", "statement": "At every non-zero displacement, the closed forms used for the first and second derivatives of the Oseen tensor, its Laplacian, the derivative of its Laplacian, and the derivatives of the rotlet and stresslet tensors are the true derivatives; the flow is incompressible and biharmonic.", "quantifier": "all non-zero displacements, all index combinations", "why_tests_cant": "Calculus identities at every point; finite differencing only samples and has truncation error.", "anchors": ["stokesian_dynamics/functions/generate_Minfinity.py:J", "stokesian_dynamics/functions/generate_Minfinity.py:D_J", "stokesian_dynamics/functions/generate_Minfinity.py:DD_J", "stokesian_dynamics/functions/generate_Minfinity.py:Lap_J", "stokesian_dynamics/functions/generate_Minfinity.py:DLap_J", "stokesian_dynamics/functions/generate_Minfinity.py:R", "stokesian_dynamics/functions/generate_Minfinity.py:K", "stokesian_dynamics/functions/generate_Minfinity.py:D_R", "stokesian_dynamics/functions/generate_Minfinity.py:D_K", "stokesian_dynamics/functions/generate_Minfinity.py:Lap_R", "stokesian_dynamics/functions/generate_Minfinity.py:Lap_K", "stokesian_dynamics/functions/generate_Minfinity.py:DLap_K"]}
{"id": "C15", "title": "Viscosity scaling", "statement": "Far-field mobility is inversely proportional and near-field resistance directly proportional to viscosity, so the grand resistance matrix (in every mode) is proportional to viscosity: multiplying mu by k multiplies it by k, and velocities for given forces divide by k.", "quantifier": "all configurations, all positive viscosities and factors", "why_tests_cant": "Ranges over all configurations and reals.", "anchors": ["stokesian_dynamics/functions/generate_Minfinity.py:generate_Minfinity", "stokesian_dynamics/functions/generate_R2Bexact.py:generate_R2Bexact", "stokesian_dynamics/functions/generate_grand_resistance_matrix.py:generate_grand_resistance_matrix"]}
{"id": "C16", "title": "Close or overlapping particles use a bounded, direction-preserving separation", "statement": "In the far-field matrix, two distinct particles whose scaled separation is below 2.001 (and not coincident) are treated as if at scaled separation exactly 2.001 along the same line of centres; others are used as they are; so the separation used is never below 2.001 average radii, and the result only depends on direction inside that range.", "quantifier": "all pairs of positions and radii", "why_tests_cant": "A piecewise statement over all real positions.", "anchors": ["stokesian_dynamics/functions/generate_Minfinity.py:generate_Minfinity_loop"]}
{"id": "C17", "title": "Far-field pair interactions are isotropic", "statement": "Rotating (by any orthogonal matrix) the displacement between two particles rotates the translation-translation coupling block accordingly (M(Qr) = Q M(r) Q^T), likewise for the other force/torque/stresslet couplings up to the parity sign.", "quantifier": "all orthogonal matrices, displacements, radii", "why_tests_cant": "Quantifies over the whole orthogonal group.", "anchors": ["stokesian_dynamics/functions/generate_Minfinity.py:M11", "stokesian_dynamics/functions/generate_Minfinity.py:M12", "stokesian_dynamics/functions/generate_Minfinity.py:M22", "stokesian_dynamics/functions/generate_Minfinity.py:M13", "stokesian_dynamics/functions/generate_Minfinity.py:J", "stokesian_dynamics/functions/generate_Minfinity.py:Lap_J"]}
{"id": "C18", "title": "Relabelling spheres relabels the matrix", "statement": "Renumbering the spheres (and the dumbbells) permutes the far-field mobility matrix, the near-field resistance matrix and the grand resistance matrix accordingly: no particle is treated specially because of its index. For the near field this needs a scalar table that satisfies the reciprocal theorem; the tables that the project's scripts make (near-field formulae, two-sphere program, combination, far-field subtraction) satisfy it.", "quantifier": "all permutations, all configurations whose size ratios are tabulated, all modes, all tables made by the scripts or satisfying the reciprocal theorem", "why_tests_cant": "Factorially many permutations over unboundedly many particles; the upper-triangle-then-symmetrise code path makes it non-trivial.", "anchors": ["stokesian_dynamics/functions/generate_Minfinity.py:generate_Minfinity_loop", "stokesian_dynamics/functions/generate_R2Bexact.py:generate_R2Bexact_loop", "find_resistance_scalars/combine_scalars.py", "find_resistance_scalars/subtract_R2Binfinity_from_scalars.py"]}
{"id": "C19", "title": "A lone sphere obeys Stokes' laws", "statement": "For a single sphere of any radius and viscosity (or particles with no interactions counted), the grand resistance matrix gives F = 6 pi mu a U, T = 8 pi mu a^3 O and S = (20/3) pi mu a^3 E.", "quantifier": "all radii, viscosities, velocities", "why_tests_cant": "A statement for all real parameters through several modules.", "anchors": ["stokesian_dynamics/functions/generate_Minfinity.py:generate_Minfinity_loop", "stokesian_dynamics/functions/generate_grand_resistance_matrix.py:generate_grand_resistance_matrix", "stokesian_dynamics/functions/generate_R2Bexact.py:generate_R2Bexact_loop", "stokesian_dynamics/functions/timestepping.py:generate_output_FTSUOE"]}
{"id": "C20", "title": "The near-field resistance matrix is symmetric, local and complete", "statement": "For every configuration the near-field matrix is symmetric; blocks between particles not closer than the cutoff are zero; each particle's self block is the sum over exactly its neighbours within the cutoff, each counted once, with the displacement pointing from the particle to that neighbour.", "quantifier": "all configurations, sizes in the table, cutoff factors", "why_tests_cant": "Ranges over all configurations and neighbour graphs.", "anchors": ["stokesian_dynamics/functions/generate_R2Bexact.py:generate_R2Bexact_loop", "stokesian_dynamics/functions/generate_R2Bexact.py:generate_R2Bexact", "stokesian_dynamics/functions/shared.py:close_particles"]}
{"id": "C21", "title": "Near-field tensors have the symmetries physics needs", "statement": "For every unit vector and any scalar values, the near-field pair tensors are symmetric/antisymmetric and traceless in the index pairs that are condensed, so that the condensed 5x5, 5x3 and 3x5 blocks represent exactly the full third- and fourth-order tensors acting on symmetric traceless matrices.", "quantifier": "all unit vectors, all scalar functions, all symmetric traceless strain rates", "why_tests_cant": "Tensor identities over the sphere.", "anchors": ["stokesian_dynamics/functions/generate_R2Bexact.py:L1", "stokesian_dynamics/functions/generate_R2Bexact.py:L3", "stokesian_dynamics/functions/generate_R2Bexact.py:L4", "stokesian_dynamics/functions/generate_R2Bexact.py:L5", "stokesian_dynamics/functions/generate_R2Bexact.py:L6", "stokesian_dynamics/functions/generate_R2Bexact.py:L7", "stokesian_dynamics/functions/generate_R2Bexact.py:L8", "stokesian_dynamics/functions/generate_R2Bexact.py:L9", "stokesian_dynamics/functions/generate_R2Bexact.py:Gf", "stokesian_dynamics/functions/generate_R2Bexact.py:Hf", "stokesian_dynamics/functions/generate_R2Bexact.py:Mf", "stokesian_dynamics/functions/generate_R2Bexact.py:con_Gf_row", "stokesian_dynamics/functions/generate_R2Bexact.py:con_Hf_row", "stokesian_dynamics/functions/shared.py:cond_E"]}
{"id": "C22", "title": "Table lookup is exact at nodes, monotone-safe between and clamped outside", "statement": "Looking up a resistance scalar returns the tabulated value at a tabulated separation, a value between the two neighbouring tabulated values (on the straight line joining them) inside the table, the first value below it and the last value beyond it.", "quantifier": "all strictly increasing separation tables, all tabulated values, all separations", "why_tests_cant": "Ranges over all tables and real separations.", "anchors": ["stokesian_dynamics/functions/generate_R2Bexact.py:XYZ", "stokesian_dynamics/resistance_scalars/data.py:s_dash_range"]}
{"id": "C23", "title": "Neighbour search (non-periodic) finds exactly the close pairs", "statement": "In an unbounded domain the neighbour list contains the pair (i,j), i<=j, exactly once if the centre distance divided by the mean radius is strictly below twice the cutoff factor and not otherwise, with displacement, distance and size ratio of that pair and in row order; each particle is paired with itself.", "quantifier": "all positions, sizes, cutoff factors, particle counts", "why_tests_cant": "All configurations.", "anchors": ["stokesian_dynamics/functions/shared.py:close_particles"]}
{"id": "C24", "title": "Neighbour search (periodic) uses lattice images correctly", "statement": "In a (sheared) periodic box each returned displacement differs from the direct displacement by a lattice vector of the box, is in the fundamental cell, and every returned pair is within the scaled cutoff; every pair whose fundamental-cell image is within the cutoff both in absolute and in scaled distance is returned.", "quantifier": "all box sizes and shears with positive dimensions, positions, sizes", "why_tests_cant": "All configurations and box shears.", "anchors": ["stokesian_dynamics/functions/shared.py:close_particles", "stokesian_dynamics/functions/shared.py:shear_basis_vectors"]}
{"id": "C25", "title": "Grand resistance matrix is what the mode says", "statement": "Depending on the two switches, the matrix used is: inverse far-field mobility plus near-field; inverse far-field only; diagonal drag plus near-field; or diagonal drag only; the drag diagonal is positive for positive radii; the matrix is symmetric in every mode.", "quantifier": "all configurations, both switches, all viscosities", "why_tests_cant": "All configurations and modes.", "anchors": ["stokesian_dynamics/functions/generate_grand_resistance_matrix.py:generate_grand_resistance_matrix"]}
{"id": "C26", "title": "Cached far-field inverse is never stale beyond the advertised schedule", "statement": "At every frame of every run, with refresh interval n, the far-field inverse used in the first stage is the one generated from the configuration at the latest frame f <= current with f divisible by n or f the starting frame; with n=1 it is always the current configuration; the cache is never overwritten by later RK4 stages.", "quantifier": "all runs: any number of frames, refresh interval, start frame, scheme, configuration history", "why_tests_cant": "A history property over unboundedly long runs and resume points.", "anchors": ["stokesian_dynamics/run_simulation.py:generate_frame", "stokesian_dynamics/functions/generate_grand_resistance_matrix.py:generate_grand_resistance_matrix"]}
{"id": "C27", "title": "Position updates follow the advertised scheme", "statement": "Euler advances by dt*u; Adams-Bashforth by dt*(1.5u-0.5u_prev) with an Euler first step; RK4 by the weighted mean (1,2,2,1)/6 of its four stage velocities; AB2 is exact for velocities linear in time and RK4 reduces to Simpson's rule for velocities that depend on time only.", "quantifier": "all positions, velocities, time steps, frame numbers, start frames", "why_tests_cant": "Real-valued identities over all histories.", "anchors": ["stokesian_dynamics/functions/timestepping.py:euler_timestep", "stokesian_dynamics/functions/timestepping.py:ab2_timestep", "stokesian_dynamics/run_simulation.py:generate_frame"]}
{"id": "C28", "title": "Orientation update is a rigid rotation", "statement": "Advancing a sphere's orientation arrows for time dt with angular velocity Omega rotates each arrow about the axis Omega through the angle |Omega| dt (right-handed) about the sphere centre: lengths and the angle between the two arrows are preserved exactly, arrows move with the centre, and zero angular velocity leaves them unchanged.", "quantifier": "all non-degenerate arrows, all angular velocities, all time steps and positions", "why_tests_cant": "Trigonometric identity over all reals through spherical coordinates and a non-orthogonal basis change.", "anchors": ["stokesian_dynamics/functions/timestepping.py:euler_timestep_rotation", "stokesian_dynamics/functions/timestepping.py:ab2_timestep_rotation"]}
{"id": "C29", "title": "Fully-2D mode keeps spheres in their plane", "statement": "With the 2D option on, no time step of any scheme changes a sphere's y coordinate in a non-periodic domain.", "quantifier": "all runs, schemes, inputs", "why_tests_cant": "History property over all inputs.", "anchors": ["stokesian_dynamics/run_simulation.py:generate_frame"]}
{"id": "C30", "title": "Periodic wrap lands in the cell and only moves by lattice vectors", "statement": "Wrapping positions into a (sheared) periodic box returns points in the fundamental cell, each differing from the original by an integer combination of the box vectors; wrapping twice equals wrapping once, and two points differing by box vectors wrap to the same point.", "quantifier": "all positions, all boxes with positive dimensions, all shear strains giving non-degenerate boxes", "why_tests_cant": "All reals; integer part behaviour at boundaries.", "anchors": ["stokesian_dynamics/functions/timestepping.py:wrap_around", "stokesian_dynamics/functions/shared.py:shear_basis_vectors"]}
{"id": "C31", "title": "The background flow is one affine field", "statement": "Spheres and dumbbells are advected by the same field u(x)=U+Omega x (x-c)+E.(x-c): a dumbbell's centre and half-difference velocities are those that its two beads would get individually, and angular velocity gets +Omega.", "quantifier": "all flows, positions, dumbbell vectors", "why_tests_cant": "All reals.", "anchors": ["stokesian_dynamics/functions/timestepping.py:add_background_flow_spheres", "stokesian_dynamics/functions/timestepping.py:add_background_flow_dumbbells"]}
{"id": "C32", "title": "Shear inputs are pure shear with consistent integrals", "statement": "Constant and oscillatory shear inputs give a traceless symmetric E and an Omega such that the flow is simple shear of the stated rate in the stated plane, and the strain integrals used to deform the box are antiderivatives in time of the rates.", "quantifier": "all rates, amplitudes, periods, phases, times, orientations flags", "why_tests_cant": "Calculus identity at all times.", "anchors": ["stokesian_dynamics/setups/functions_inputs.py:constant_shear", "stokesian_dynamics/setups/functions_inputs.py:oscillatory_shear"]}
{"id": "C33", "title": "Repulsion obeys Newton's third law and really repels", "statement": "With no wall particles, the repulsion added to all particles sums to zero; for each close pair the force on each is along the line of centres, away from the other, of equal magnitude; particles beyond the cutoff or coincident get none; dumbbell force and force difference are the sum and difference of the bead forces.", "quantifier": "all configurations and force parameters", "why_tests_cant": "All configurations.", "anchors": ["stokesian_dynamics/setups/functions_inputs.py:repulsion_forces"]}
{"id": "C34", "title": "Explosion protection stops the run and stays stopped", "statement": "With protection on, if any dumbbell exceeds length 5 after a step the error flag is raised, and from then on no later frame changes positions, saved data or the temp file; with protection off or all lengths at most 5 the flag is passed through.", "quantifier": "all runs and dumbbell configurations", "why_tests_cant": "History property.", "anchors": ["stokesian_dynamics/functions/timestepping.py:did_something_go_wrong_with_dumbells", "stokesian_dynamics/run_simulation.py:generate_frame"]}
{"id": "C35", "title": "Saved file has exactly the promised frames", "statement": "For a fresh error-free run that saves every n frames from frame 0, the final file contains the starting configuration of each frame 0,n,2n,... in order (plus the final configuration when the last frame is a saved frame), and one force record per saved frame.", "quantifier": "all run lengths, save intervals, trajectories", "why_tests_cant": "Unbounded run lengths/intervals.", "anchors": ["stokesian_dynamics/run_simulation.py:generate_frame", "stokesian_dynamics/run_simulation.py:saved_element_positions"]}
{"id": "C36", "title": "Backup file is always a usable prefix of the final data", "statement": "At every point of a run after the first backup, the temp file holds a prefix of what the final file will contain, at most save_to_temp_file_every_n_timesteps frames old; it is removed only after the final file is written.", "quantifier": "all crash points of all runs", "why_tests_cant": "Quantifies over crash points.", "anchors": ["stokesian_dynamics/run_simulation.py:generate_frame", "stokesian_dynamics/run_simulation.py:backup_file"]}
{"id": "C37", "title": "Resuming from a backup reproduces the uninterrupted run", "statement": "With saving every frame from frame 0 and one-step schemes refreshed every frame, a run killed at any point and restarted from its temp file ends with the same saved positions as the uninterrupted run.", "quantifier": "all kill points, run lengths, backup intervals, (deterministic) dynamics", "why_tests_cant": "Quantifies over crash points and histories.", "anchors": ["stokesian_dynamics/setups/positions.py:checkpoint_filename", "stokesian_dynamics/setups/positions.py:checkpoint_start_from_frame", "stokesian_dynamics/run_simulation.py:generate_frame"]}
{"id": "C38", "title": "Command-line arguments override the right settings", "statement": "Up to six positional arguments override setup number, input number, timestep, number of frames, input form and force-extraction flag respectively; omitted ones keep their defaults; a malformed number aborts with the usage error.", "quantifier": "all argument lists", "why_tests_cant": "All strings/lists.", "anchors": ["stokesian_dynamics/settings.py:args", "stokesian_dynamics/settings.py:setup_number", "stokesian_dynamics/settings.py:extract_force_on_wall_due_to_dumbbells"]}
{"id": "C39", "title": "Start-up validation rejects impossible particle/input-form combinations", "statement": "A run starts only if: with no spheres, the input form is a dumbbell form or fts; with spheres, it is not a dumbbell-only form; and every ratio of two sphere sizes is in the table, so sphere-sphere interactions can always be looked up.", "quantifier": "all size lists and input forms", "why_tests_cant": "All inputs.", "anchors": ["stokesian_dynamics/run_simulation.py:error", "stokesian_dynamics/run_simulation.py:size_ratios", "stokesian_dynamics/resistance_scalars/data.py:lam_range_with_reciprocals"]}
{"id": "C40", "title": "The size-ratio table is closed under swapping the two particles", "statement": "The list of available ratios contains every tabulated ratio and its reciprocal, is sorted, has no repeated entries beyond the originals, and is closed under reciprocals, so a lookup for (a,b) succeeds iff it succeeds for (b,a).", "quantifier": "all lists of positive tabulated ratios", "why_tests_cant": "All lists.", "anchors": ["stokesian_dynamics/resistance_scalars/data.py:lam_range_with_reciprocals", "stokesian_dynamics/functions/generate_R2Bexact.py:generate_R2Bexact_loop"]}
{"id": "C41", "title": "Random sphere placement never overlaps and stays in the box", "statement": "Whatever random numbers are drawn, if random placement of spheres terminates then the centres are in the box, no two placed spheres overlap, and none overlaps a pre-existing sphere.", "quantifier": "all random streams, counts, sizes, boxes", "why_tests_cant": "All random streams.", "anchors": ["stokesian_dynamics/setups/functions_positions.py:randomise_spheres", "stokesian_dynamics/setups/functions_positions.py:random_point_in_box", "stokesian_dynamics/setups/functions_positions.py:overlaps"]}
{"id": "C42", "title": "Random dumbbell placement never overlaps and has the right lengths", "statement": "Whatever random numbers are drawn, if placement terminates then all beads are in the box, beads of different dumbbells do not overlap each other nor any sphere, and each dumbbell has the requested bead separation and centre midway.", "quantifier": "all random streams, counts, sizes, boxes", "why_tests_cant": "All random streams.", "anchors": ["stokesian_dynamics/setups/functions_positions.py:randomise_dumbbells"]}
{"id": "C43", "title": "Time-left estimate and time formatting are sane", "statement": "The estimated remaining time is zero on the last frame, non-negative, and never below 1.03*(frames left)*(smallest per-frame average) nor above the same with the largest; formatted durations encode exactly the whole seconds with minutes and seconds below 60 and hours below 24.", "quantifier": "all timing histories and durations", "why_tests_cant": "All histories.", "anchors": ["stokesian_dynamics/functions/timestepping.py:calculate_time_left", "stokesian_dynamics/functions/shared.py:format_elapsed_time", "find_resistance_scalars/functions_general.py:format_seconds"]}
{"id": "C44", "title": "Precomputed scalars are read back by the same convention they are written", "statement": "Extracting the eleven resistance scalars from an assembled two-sphere resistance matrix aligned with the x axis inverts the assembly used by the simulation: the scalars recovered are the scalars the tensors were built from. Consequently, for two spheres in any position at a tabulated distance and size ratio, every entry of the grand resistance matrix is the entry built from the original scalars, before the far field was subtracted.", "quantifier": "all scalar values, radii, orientations, tabulated distances and size ratios", "why_tests_cant": "All reals; sign/normalisation errors can cancel on samples.", "anchors": ["find_resistance_scalars/subtract_R2Binfinity_from_scalars.py", "stokesian_dynamics/functions/generate_R2Bexact.py:Af", "stokesian_dynamics/functions/generate_R2Bexact.py:Bf", "stokesian_dynamics/functions/generate_R2Bexact.py:Gf", "stokesian_dynamics/functions/generate_R2Bexact.py:Hf", "stokesian_dynamics/functions/generate_R2Bexact.py:Mf"]}
{"id": "C45", "title": "Mobility scalars convert to resistance scalars by true inversion", "statement": "The midfield script picks the two-sphere mobility functions correctly from the answers of the Fortran program, converts them to resistance functions such that the resistance relation is exactly the inverse of the mobility relation (force/torque/stresslet against velocity/angular velocity/strain rate) about every axis, keeps the reciprocal theorem, and writes table columns for a size ratio and its reciprocal which, put into the near-field formulas of the simulation from the two spheres' points of view, reproduce that relation. It stops only if one of three matrices is singular.", "quantifier": "all mobility scalar values obeying the reciprocal theorem with invertible sub-blocks, all axes, all loads and motions, all size ratios > 0", "why_tests_cant": "All reals; inverse relations cannot be compared on finitely many inputs.", "anchors": ["find_resistance_scalars/generate_scalars_midfield.py:convert_dim_kim_mobility_to_dim_resistance", "find_resistance_scalars/generate_scalars_midfield.py:find_dim_kim_mobility_scalars", "find_resistance_scalars/generate_scalars_midfield.py:nondimensionalise_scalars"]}
{"id": "C46", "title": "Near-field scalar formulas are consistent", "statement": "The near-field functions for the sizes (a, b) and (b, a), series included, obey the reciprocal theorem, also as columns of the table read by the simulation; when the pair moves as one rigid body or is held in a linear flow, the terms that diverge as the gap closes cancel between the spheres in every force, torque and stresslet; and when one sphere is pushed against or past the other the force diverges with the coefficient of lubrication theory.", "quantifier": "all radii > 0, all gaps (all distances, interpolated), all orientations, all linear flows, both spheres, every load component", "why_tests_cant": "The reciprocity of the series is an identity between sums of solutions of recurrences in two indices, for every real size ratio; the cancellation is a limit over a continuum of gaps, orientations and flows.", "anchors": ["find_resistance_scalars/functions_nearfield.py"]}
{"id": "C47", "title": "Correct scalar file for the chosen mode", "statement": "The scalar table subtracts the same far-field part that the simulation adds back: the drag-only table is used when and only when the settings ask for drag-only subtraction.", "quantifier": "all setting combinations", "why_tests_cant": "Exhaustive over settings, but the intent is documented only in prose so no test states it.", "anchors": ["stokesian_dynamics/resistance_scalars/data.py:XYZ_raw", "stokesian_dynamics/settings.py:use_drag_R2Binfinity"]}
{"id": "C48", "title": "Far-field entries are the multipole response of one particle to another", "statement": "Every entry of the far-field mobility matrix is what the physics says: the self block of a particle is Stokes' and Einstein's single-sphere mobility, and the entry coupling two distinct particles is the velocity, angular velocity or strain rate that Faxen's law gives the one in the Oseen multipole flow (force, torque, stresslet with finite-size corrections) of the other; every row belongs to exactly one component of one particle.", "quantifier": "all sphere and dumbbell counts, all radii > 0, all non-coincident positions, all viscosities, every entry", "why_tests_cant": "It relates closed-form expressions to derivatives of a singular flow field at every point of a continuum, for matrices of unbounded size.", "anchors": ["stokesian_dynamics/functions/generate_Minfinity.py:generate_Minfinity_loop", "stokesian_dynamics/functions/generate_Minfinity.py:M11", "stokesian_dynamics/functions/generate_Minfinity.py:M12", "stokesian_dynamics/functions/generate_Minfinity.py:M13", "stokesian_dynamics/functions/generate_Minfinity.py:M22", "stokesian_dynamics/functions/generate_Minfinity.py:M23", "stokesian_dynamics/functions/generate_Minfinity.py:M33"]}
{"id": "C49", "title": "Dilute suspensions are always solvable", "statement": "If every particle is far from all others (the sum over the others of the geometric mean of the radii over the centre distance is below 1/3520), the far-field mobility matrix is positive definite, its unguarded inversion succeeds, the resistance matrix is symmetric positive definite, and every complete input of every allowed form has a solution; so no singular-matrix error can stop such a run.", "quantifier": "all sphere and dumbbell counts, all radii > 0, all positions satisfying the diluteness bound, all viscosities > 0, all input forms and complete inputs", "why_tests_cant": "Invertibility over a continuum of configurations with unboundedly many particles; a test inverts finitely many matrices.", "anchors": ["stokesian_dynamics/functions/generate_Minfinity.py:generate_Minfinity", "stokesian_dynamics/functions/generate_grand_resistance_matrix.py:generate_grand_resistance_matrix"]}
{"id": "C50", "title": "Periodic kernels are the derivatives they claim to be", "statement": "In a periodic box the closed forms used in the Ewald sums are exact: the seven numbers of generate_erfcs are the derivatives of erfc(lambda s) of orders 0 to 6; J, D_J, DD_J, Lap_J, DLap_J, DDLap_J are the screened Green's function (the Stokes operator applied to r erfc(lambda r)) and its derivatives; R, K and their companions are its point-torque and stresslet flows; the wave tensors are the derivatives of a transverse wave; both parts are incompressible; without screening the tensor is the Oseen tensor.", "quantifier": "all screening parameters, all non-zero displacements, all wave vectors, every tensor component", "why_tests_cant": "The closed forms are derivatives up to sixth order over a continuum of points; a finite-difference test checks a few of them to a few digits.", "anchors": ["stokesian_dynamics/functions/generate_Minfinity_periodic.py:generate_erfcs", "stokesian_dynamics/functions/generate_Minfinity_periodic.py:J", "stokesian_dynamics/functions/generate_Minfinity_periodic.py:D_J", "stokesian_dynamics/functions/generate_Minfinity_periodic.py:DD_J", "stokesian_dynamics/functions/generate_Minfinity_periodic.py:Lap_J", "stokesian_dynamics/functions/generate_Minfinity_periodic.py:DLap_J", "stokesian_dynamics/functions/generate_Minfinity_periodic.py:DDLap_J", "stokesian_dynamics/functions/generate_Minfinity_periodic.py:Jtilde"]}
{"id": "C51", "title": "Periodic pair blocks are the response through the Green's function of the box", "statement": "For two distinct particles in a periodic box, every pair block (force, torque, stress against velocity, angular velocity, rate of strain) is the Faxen response of the one to the load on the other through the Ewald Green's function: the screened part summed over all images used plus the smooth part summed over all waves used.", "quantifier": "all finite image and wave sets, all radii, viscosities, all displacements not on the lattice, every component", "why_tests_cant": "It compares finite sums of closed forms with derivatives of another function at every point of a continuum.", "anchors": ["stokesian_dynamics/functions/generate_Minfinity_periodic.py:M11", "stokesian_dynamics/functions/generate_Minfinity_periodic.py:M12", "stokesian_dynamics/functions/generate_Minfinity_periodic.py:M13", "stokesian_dynamics/functions/generate_Minfinity_periodic.py:M22", "stokesian_dynamics/functions/generate_Minfinity_periodic.py:M23", "stokesian_dynamics/functions/generate_Minfinity_periodic.py:M33"]}
{"id": "C52", "title": "Periodic self blocks are an isolated sphere plus its images", "statement": "The self block of a particle in a periodic box is the mobility of an isolated sphere plus what its own images add, where the latter is the limit at vanishing separation of the response in the box minus the response in unbounded fluid.", "quantifier": "all radii, viscosities, all boxes in simple shear of any size with sides above 1e-10, every component", "why_tests_cant": "The images' part is the limit of a difference of two divergent quantities; no run can evaluate it.", "anchors": ["stokesian_dynamics/functions/generate_Minfinity_periodic.py:M11", "stokesian_dynamics/functions/generate_Minfinity_periodic.py:M12", "stokesian_dynamics/functions/generate_Minfinity_periodic.py:M13", "stokesian_dynamics/functions/generate_Minfinity_periodic.py:M22", "stokesian_dynamics/functions/generate_Minfinity_periodic.py:M23", "stokesian_dynamics/functions/generate_Minfinity_periodic.py:M33"]}
{"id": "C53", "title": "Images and waves belong to the sheared box", "statement": "The images summed are exactly the lattice vectors of the folded sheared box with coefficients up to the chosen number and length within the cut-off, each once; the waves are reciprocal to it, so that the wave sum repeats from box to box; both sets are symmetric; and the cut-off keeps the symmetry of the box.", "quantifier": "all boxes, all shear planes and amounts, all numbers of boxes", "why_tests_cant": "All real shears and box sizes; a test can list the vectors of a few boxes.", "anchors": ["stokesian_dynamics/functions/generate_Minfinity_periodic.py:generate_Minfinity_periodic"]}
{"id": "C54", "title": "Every entry of the periodic far-field matrix is the response it stands for", "statement": "For any suspension in a periodic box, each entry of the far-field matrix is the component of motion of one bead due to a unit component of load on another through the Green's function of the box (or, for a bead with itself, the isolated-sphere value plus what its images add), written at the right row and column; bead-bead interactions can be switched off; the matrix is symmetric, square, independent of a common translation, inversely proportional to the viscosity, and is returned in dumbbell coordinates.", "quantifier": "all numbers of spheres and dumbbells, all sizes, all positions with no bead on an image of another, all boxes in simple shear, all viscosities, both settings of the switch, every entry", "why_tests_cant": "Unboundedly many particles, a continuum of positions, and a reference value that is a derivative of a lattice sum.", "anchors": ["stokesian_dynamics/functions/generate_Minfinity_periodic.py:generate_Minfinity_periodic"]}
{"id": "C55", "title": "The results do not depend on the unit of length", "statement": "Multiply all positions, separations and radii by k > 0 and keep forces and the viscosity. Then the far-field mobility, the near-field resistance and the grand resistance matrix (in every mode) change exactly by the powers of k of their units: for torques and stresslets multiplied by k the far field gives velocities divided by k and angular velocities and rates of strain divided by k squared, and conversely for the resistance matrices. The same pairs count as close, the same tables apply, and the matrices exist for the rescaled configuration if they do for the original.", "quantifier": "all k > 0, configurations of spheres and dumbbells, tables, cutoffs, modes, grand vectors", "why_tests_cant": "A statement for all scale factors and all configurations; a forgotten factor of a radius is invisible in tests with unit spheres.", "anchors": ["stokesian_dynamics/functions/generate_Minfinity.py:generate_Minfinity", "stokesian_dynamics/functions/generate_R2Bexact.py:generate_R2Bexact", "stokesian_dynamics/functions/generate_grand_resistance_matrix.py:generate_grand_resistance_matrix", "stokesian_dynamics/functions/generate_Minfinity.py:M11", "stokesian_dynamics/functions/generate_R2Bexact.py:generate_R2Bexact_loop"]}
{"id": "C56", "title": "The results do not depend on the choice of axes", "statement": "Turning (or reflecting) the whole configuration by any orthogonal matrix turns the far-field mobility, the near-field resistance and the grand resistance matrix (in every mode): turned motions give turned loads, where forces and velocities turn as vectors, torques and angular velocities as axial vectors, and stresslets and rates of strain as matrices in the five-component form. The matrices exist for the turned configuration if they do for the original.", "quantifier": "all orthogonal matrices, configurations of spheres and dumbbells, tables, cutoffs, modes, grand vectors", "why_tests_cant": "Quantifies over the whole orthogonal group and all configurations, through inversion and the change to dumbbell coordinates.", "anchors": ["stokesian_dynamics/functions/generate_Minfinity.py:generate_Minfinity", "stokesian_dynamics/functions/generate_R2Bexact.py:generate_R2Bexact", "stokesian_dynamics/functions/generate_grand_resistance_matrix.py:generate_grand_resistance_matrix", "stokesian_dynamics/functions/generate_R2Bexact.py:generate_R2Bexact_loop"]}
{"id": "C57", "title": "The combined scalar table keeps every scalar beside its distance", "statement": "Combining the near-field and the midfield tables keeps each scalar at the distance, size ratio, scalar name and side of the pair it was computed for, and the distances ascend. This holds when every near-field distance lies below every midfield distance; otherwise the distances are sorted but the scalars are not, and a scalar ends up beside another distance.", "quantifier": "all pairs of tables over the same size ratios, all cells", "why_tests_cant": "All tables and cells; the misalignment only shows for overlapping ranges of distances and yields plausible numbers.", "anchors": ["find_resistance_scalars/combine_scalars.py"]}
{"id": "C58", "title": "The drag-only far field is a row of isolated spheres and matches the drag-only table", "statement": "The drag-only script takes from each scalar exactly the scalar of two spheres that do not feel each other. In drag mode the simulation therefore should give back the isolated resistances plus the near-field interaction; it gives 1/(6 pi) of the isolated resistance of each particle, because the drag diagonal lacks the factor 6 pi that the script uses.", "quantifier": "all tables, distances, size ratios, configurations of spheres, viscosities", "why_tests_cant": "All reals; a missing constant factor on the diagonal leaves every symmetry and shape test intact.", "anchors": ["find_resistance_scalars/subtract_R2Binfinitydrag_from_scalars.py", "stokesian_dynamics/functions/generate_grand_resistance_matrix.py:generate_grand_resistance_matrix"]}
{"id": "C59", "title": "Far-field mobility dissipates for every non-overlapping configuration", "statement": "If no two beads are closer than 2.001 average radii (the distance below which the code replaces the separation), the far-field mobility matrix of any number of spheres and dumbbells is positive definite: whatever loads act, they do positive work. So the unguarded inversion succeeds, the far-field resistance is positive definite, and with the near field off every complete input is solved. Two spheres (or one dumbbell) may even overlap. With the dumbbell beads' interaction switched off the claim is false.", "quantifier": "all sphere and dumbbell counts, all radii > 0, all positions with pair distances at least 2.001 average radii, all viscosities > 0, all loads", "why_tests_cant": "Positive definiteness over a continuum of configurations of unboundedly many particles, including nearly touching ones; a test inverts finitely many matrices.", "anchors": ["stokesian_dynamics/functions/generate_Minfinity.py:generate_Minfinity", "stokesian_dynamics/functions/generate_Minfinity.py:M11", "stokesian_dynamics/functions/generate_grand_resistance_matrix.py:generate_grand_resistance_matrix"]}
{"id": "C60", "title": "Near-field resistances never feed energy in, if every table row passes four small tests", "statement": "The near-field scalars are read from a table and added to the far-field resistance unchecked. The power a pair of spheres spends on its near-field interaction is non-negative for all motions exactly if four quadratic forms in at most six numbers are (motion along the line of centres, twisting about it, motion across it, straining across it). If this holds at every tabulated distance and size ratio, then the near-field matrix of every configuration is positive semidefinite at all distances, inside and outside the table, with the bead-bead switch on or off; and for beads that do not overlap the complete resistance matrix is symmetric positive definite and every complete input is solved. For two spheres the condition is also necessary, and a table violating it yields motions that gain energy.", "quantifier": "all tables meeting the condition, all sphere and dumbbell counts, radii > 0 with tabulated ratios, positions, cut-offs > 0, viscosities > 0, motions and inputs", "why_tests_cant": "The claim concerns unboundedly many particles at a continuum of distances between table rows; a test sees a few configurations of one table.", "anchors": ["stokesian_dynamics/functions/generate_R2Bexact.py:generate_R2Bexact", "stokesian_dynamics/functions/generate_R2Bexact.py:XYZ", "stokesian_dynamics/functions/generate_grand_resistance_matrix.py:generate_grand_resistance_matrix"]}
{"id": "C61", "title": "Prescribed loads and motions superpose, reverse and vanish together", "statement": "For a fixed configuration and a fixed choice of which particles are held at prescribed velocities, the answer is linear in everything that is prescribed: any combination of two sets of inputs (forces, torques, stresslets, rates of strain, velocities, in any of the five input forms) is solved by the same combination of the two answers. So reversing every prescribed quantity reverses every computed one, and if everything prescribed is zero, nothing moves and no force acts.", "quantifier": "all sphere and dumbbell counts, input forms, held particles, symmetric positive definite resistance matrices, inputs and coefficients", "why_tests_cant": "Linearity over a continuum of inputs and of matrices of unbounded size; the mixed forms swap and invert blocks, where an error shows only for particular patterns of held particles.", "anchors": ["stokesian_dynamics/functions/simulation_tools.py:fts_to_fte_matrix", "stokesian_dynamics/functions/simulation_tools.py:fte_to_ufte_matrix", "stokesian_dynamics/functions/simulation_tools.py:ufte_to_ufteu_matrix", "stokesian_dynamics/functions/simulation_tools.py:fts_to_duf_matrix", "stokesian_dynamics/functions/timestepping.py:generate_output_FTSUOE"]}
{"id": "C62", "title": "The computed flows obey the reciprocal theorem and dissipate as little as they can", "statement": "For any two problems about the same particles, in any input forms, the loads of the first work as much against the motions of the second as the other way round. The loads of an answer never gain energy from the motions that go with them, and do no work only if nothing moves. If every particle is, in every way it can move, either made to move or free of load, then every other motion with the same prescribed motions dissipates strictly more.", "quantifier": "all sphere and dumbbell counts, pairs of input forms, held particles, symmetric (positive definite) resistance matrices, inputs", "why_tests_cant": "An identity and an inequality over all pairs of answers; a sign or factor error in one block of a mixed form breaks them only for some pairs.", "anchors": ["stokesian_dynamics/functions/simulation_tools.py:fts_to_fte_matrix", "stokesian_dynamics/functions/simulation_tools.py:fte_to_ufte_matrix", "stokesian_dynamics/functions/simulation_tools.py:ufte_to_ufteu_matrix", "stokesian_dynamics/functions/simulation_tools.py:fts_to_duf_matrix", "stokesian_dynamics/functions/timestepping.py:generate_output_FTSUOE"]}
{"id": "C63", "title": "Turned, reflected or enlarged problems have turned, reflected or enlarged answers", "statement": "Turn or reflect the configuration and all prescribed quantities by any orthogonal matrix: the resistance matrix of the turned configuration can be built in the same mode and solving the turned problem, in any input form, returns exactly the turned forces, torques, stresslets and motions. The same holds when all lengths are multiplied by a positive factor and each prescribed quantity by its power of that factor.", "quantifier": "all orthogonal matrices and factors, configurations, tables, cutoffs, modes with positive definite resistance, input forms, held particles, inputs", "why_tests_cant": "Quantifies over the orthogonal group and all configurations through matrix inversion and block exchange.", "anchors": ["stokesian_dynamics/functions/simulation_tools.py:fts_to_fte_matrix", "stokesian_dynamics/functions/simulation_tools.py:fte_to_ufte_matrix", "stokesian_dynamics/functions/simulation_tools.py:ufte_to_ufteu_matrix", "stokesian_dynamics/functions/simulation_tools.py:fts_to_duf_matrix", "stokesian_dynamics/functions/timestepping.py:generate_output_FTSUOE", "stokesian_dynamics/functions/generate_grand_resistance_matrix.py:generate_grand_resistance_matrix"]}
{"id": "C64", "title": "A whole simulation seen after a rigid motion is the moved simulation", "statement": "Rotate, reflect and shift the starting configuration by x -> Qx+t, and let the inputs turn with it (forces, torques, stresslets, velocities, strains, the background flow and its centre). Then the program started from the moved configuration runs through and saves exactly the moved positions, displacements and orientation arrows and the turned forces and stresslets, frame by frame, in every input form, time-stepping scheme and resistance mode of an unbounded fluid, as long as no two spheres come closer than 2.001 average radii. In planar mode the motion has to keep the plane.", "quantifier": "all orthogonal matrices and shifts, particle numbers and sizes, starting states, input functions, tables that dissipate, settings, numbers of frames", "why_tests_cant": "The claim is about all rotations and shifts and runs of any length; the reference frame enters through dozens of hard-coded axes (shear basis, orientation arrows, tensor components), so a wrong one shows only off the axes.", "anchors": ["stokesian_dynamics/functions/simulation_tools.py:fts_to_fte_matrix", "stokesian_dynamics/functions/simulation_tools.py:fte_to_ufte_matrix", "stokesian_dynamics/functions/simulation_tools.py:ufte_to_ufteu_matrix", "stokesian_dynamics/functions/simulation_tools.py:fts_to_duf_matrix", "stokesian_dynamics/functions/timestepping.py:generate_output_FTSUOE", "stokesian_dynamics/functions/generate_grand_resistance_matrix.py:generate_grand_resistance_matrix", "stokesian_dynamics/run_simulation.py:generate_frame", "stokesian_dynamics/functions/timestepping.py:euler_timestep_rotation"]}
{"id": "C65", "title": "A run stops with an exception only when beads touch", "statement": "With particle sizes covered by the tables, tables that dissipate, a supported scheme, saving switched on from the first frame and an input function that answers completely for every configuration, the program either writes its file or has visited, at a frame or inside a Runge-Kutta frame, a configuration in which two beads are closer than 2.001 average radii. In particular a run with a single sphere always finishes.", "quantifier": "all particle numbers and sizes, starting configurations without touching beads, input functions, tables that dissipate, settings in the stated class, numbers of frames, schemes and input forms", "why_tests_cant": "The matrix inversions, solves, block exchanges and rotations of every stage of every frame must succeed; no finite set of runs shows that none of them can fail.", "anchors": ["stokesian_dynamics/functions/simulation_tools.py:fts_to_fte_matrix", "stokesian_dynamics/functions/simulation_tools.py:fte_to_ufte_matrix", "stokesian_dynamics/functions/simulation_tools.py:ufte_to_ufteu_matrix", "stokesian_dynamics/functions/simulation_tools.py:fts_to_duf_matrix", "stokesian_dynamics/functions/timestepping.py:generate_output_FTSUOE", "stokesian_dynamics/run_simulation.py:generate_frame", "stokesian_dynamics/functions/generate_grand_resistance_matrix.py:generate_grand_resistance_matrix", "stokesian_dynamics/functions/timestepping.py:euler_timestep_rotation"]}
{"id": "C66", "title": "Which of the project's own inputs can be simulated in which input form", "statement": "The project's input function answers seven numbers, and every run uses one of five input forms. An answer is complete (no entry left as a placeholder) only in the combinations of an explicit table: with fts and fte all seven, with ufte the numbers 1, 2, 5 and 6, with ufteu and duf none; in a run of dumbbells alone only 3 and 7. Every combination outside the table ends the program with an exception in the first frame, whatever the other settings; every combination inside it, in an unbounded fluid, runs until two beads touch.", "quantifier": "all input numbers and forms, particle numbers and sizes, configurations, settings, schemes, tables that dissipate (for running)", "why_tests_cant": "35 combinations times all configurations; the placeholders are strings in numeric arrays that only surface deep in the solver of a particular form.", "anchors": ["stokesian_dynamics/setups/inputs.py:input_ftsuoe", "stokesian_dynamics/functions/timestepping.py:generate_output_FTSUOE", "stokesian_dynamics/functions/simulation_tools.py:fts_to_duf_matrix", "stokesian_dynamics/run_simulation.py:generate_frame"]}
{"id": "C67", "title": "Without loads nothing moves, and ignored loads are no loads", "statement": "If every prescribed quantity is zero and the fluid is at rest, the program runs through and every saved frame is the first configuration with its orientation arrows, and every saved force and stresslet is zero, for every input form, scheme and number of frames. A consequence disagrees with the project's description of input 5 (half of the spheres move to the left, half to the right): with the forms fts and fte the prescribed velocities are never read, and nothing moves.", "quantifier": "all particle numbers, configurations without touching beads, input forms, schemes, settings in the stated class, tables that dissipate, numbers of frames", "why_tests_cant": "No drift in any frame of a run of any length, from any configuration; a test stops after some frames and some tolerance.", "anchors": ["stokesian_dynamics/setups/inputs.py:input_ftsuoe", "stokesian_dynamics/functions/timestepping.py:generate_output_FTSUOE", "stokesian_dynamics/run_simulation.py:generate_frame", "stokesian_dynamics/functions/timestepping.py:euler_timestep_rotation"]}
{"id": "C68", "title": "The symmetries of the listed inputs, and the origin that fts keeps", "statement": "A run with a listed input, started from a configuration moved by a rigid motion that keeps what the input describes (gravity: the vertical; shear: the flow and its centre; repulsion: everything; pulling apart: the direction of pulling), saves the moved file as long as no two beads touch. With the form fts the motion must also keep the origin: the program uses the strain it computes for each sphere as a background strain about the origin, so moving the whole suspension by t changes the velocity of sphere i by E_i t, even for spheres falling in a fluid at rest.", "quantifier": "all particle numbers, configurations, rigid motions and reflections with the stated symmetry, schemes, numbers of frames, tables that dissipate", "why_tests_cant": "The symmetry concerns all motions and all runs, and the dependence on the origin shows up only if two whole runs from shifted starts are compared, which no test does.", "anchors": ["stokesian_dynamics/setups/inputs.py:input_ftsuoe", "stokesian_dynamics/functions/timestepping.py:generate_output_FTSUOE", "stokesian_dynamics/run_simulation.py:generate_frame"]}
{"id": "C69", "title": "What the listed inputs do to the beads, and what becomes of the shear flow", "statement": "Bead by bead, the listed inputs prescribe: gravity, weight one downwards on every sphere and none on dumbbells; springs, Hooke's law with constant one half and length two, equal and opposite on the two beads; repulsion, the sum over all close beads; inputs 5 and 7, no load. With the form fts and at least one sphere, the shear of input 7 is not a shear: the strain asked for is not read, so all spheres and beads are carried by a rigid rotation, the suspension never deforms, squared lengths in its plane grow by 1 + dt^2/4 in every Euler or Runge-Kutta frame, and a run that starts without touching beads always reaches its end. With dumbbells only, every bead is exactly where the shear flow takes it.", "quantifier": "all particle numbers, configurations, time steps, numbers of frames, open domain; Euler and Runge-Kutta; for reaching the end, tables that dissipate and cover the size ratios", "why_tests_cant": "That a suspension never deforms, and that no run can stop, are statements about all configurations and all numbers of frames; a test sees a few frames of one suspension.", "anchors": ["stokesian_dynamics/setups/inputs.py:input_ftsuoe", "stokesian_dynamics/functions/timestepping.py:generate_output_FTSUOE", "stokesian_dynamics/run_simulation.py:generate_frame"]}
{"id": "C70", "title": "Points inside a polygon, and beads placed in a quadrilateral", "statement": "For every convex polygon, with any number of corners listed in either direction, the test answers yes for every interior point and no for every point outside. Beads placed by the quadrilateral loop are two for each size, lie in the plane and in the quadrilateral, and overlap neither each other nor a sphere. The function around the loop never returns.", "quantifier": "all convex polygons, all points off the boundary; all random streams, sizes, spheres", "why_tests_cant": "There are infinitely many polygons and points, and errors of such tests sit at rays through corners and along sides, which sampled points miss.", "anchors": ["stokesian_dynamics/setups/functions_positions.py:point_inside_polygon", "stokesian_dynamics/setups/functions_positions.py:randomise_beads_inside_quadrilateral"]}
{"id": "C71", "title": "Random dumbbell placement in a periodic box", "statement": "Whatever numbers are drawn, a placement that finishes has one dumbbell per size, of the requested length and direction, with its centre in the box in x and z. If the box is at least two dumbbell lengths plus two radii long in x and z, then no bead overlaps any of the infinitely many images in x and z of another dumbbell or of a sphere. Longer dumbbells can overlap images; images in y are not looked at, and a centre below the box is moved up by a million. Of the hundred tries for the second bead only the first can succeed.", "quantifier": "all random streams, counts, sizes, lengths, boxes and images", "why_tests_cant": "Infinitely many random streams and infinitely many images; the code looks at nine images, so that these suffice needs an argument about lengths.", "anchors": ["stokesian_dynamics/setups/functions_positions.py:randomise_dumbbells_periodic", "stokesian_dynamics/setups/functions_positions.py:overlaps_periodic"]}
{"id": "C72", "title": "The listed position setups", "statement": "Every listed setup built from numbers, the two random ones included whatever is drawn, has the documented numbers of spheres and dumbbells and no overlapping beads. In setups 1 to 4 the beads are well apart, so that a run with a working input can only stop early because beads come to touch. The eight spheres of the cubic array and all their periodic images form one cubic lattice of half the box side, and do not overlap exactly if the side is at least four. The walls of setups 6 and 7 are closer than the code's threshold for touching. Setup 8 gives back the first positions of the earlier run, with radii 1 and 0.1 whatever they were.", "quantifier": "all numbers, random streams, files; all sides of the cubic box; for runs all dissipating tables, inputs, schemes and numbers of frames", "why_tests_cant": "All random streams, infinitely many images, and all runs from these starting points.", "anchors": ["stokesian_dynamics/setups/positions.py:pos_setup", "stokesian_dynamics/setups/functions_positions.py:simple_cubic_8", "stokesian_dynamics/functions/shared.py:same_setup_as"]}
{"id": "C73", "title": "Two spheres move as the two-sphere solution says", "statement": "Take the tables made by the scripts from any program that solves the two-sphere mobility problem, and two spheres at a tabulated distance and size ratio, within the near-field cut-off. Then loads and motions satisfy the simulation's linear system exactly if they are those of the two-sphere mobility problem, in units of the larger radius and the viscosity, wherever the spheres are, in whatever direction they lie, and whichever of them comes first. Whatever the solver returns, in every input form with spheres, moves so and keeps the prescribed values. If the two-sphere solution dissipates energy, the matrix is positive definite and the solver always returns.", "quantifier": "all programs that solve the two-sphere problem, all lists of distances and ratios, all radii, positions, directions and viscosities, all input forms and input values", "why_tests_cant": "Samples of a few distances and directions cannot cover all directions, sizes and loads, nor separate errors of conversion that compensate at those samples.", "anchors": ["find_resistance_scalars/generate_scalars_midfield.py", "find_resistance_scalars/combine_scalars.py", "find_resistance_scalars/subtract_R2Binfinity_from_scalars.py", "stokesian_dynamics/functions/generate_grand_resistance_matrix.py:generate_grand_resistance_matrix", "stokesian_dynamics/functions/generate_R2Bexact.py:generate_R2Bexact", "stokesian_dynamics/functions/simulation_tools.py:fts_to_fte_matrix", "tests/test_all.py"]}
{"id": "C74", "title": "Feeding dumbbells from below", "statement": "The function that feeds a sedimenting suspension leaves it alone in frames in which nothing is due and raises in all others, because a slice bound is a float. Up to that line it does what it should: the list of beads has as many beads as before; those stay that are not higher above the reference sphere than half the height of the suspension; the lowest beads of the first saved frame of the other run come below, level with or below the lowest old bead and not touching any bead that stayed; only what is then missing is put back. The list is made exactly if the sphere is below the middle height of the beads, some bead stays, and the file has a frame with dumbbells.", "quantifier": "all configurations, saved runs, intervals, frames and reference spheres, and every order of beads of the same height", "why_tests_cant": "Any configuration and any saved run can be fed; samples cannot show that no active frame ever returns.", "anchors": ["stokesian_dynamics/functions/shared.py:feed_particles_from_bottom", "stokesian_dynamics/functions/shared.py:same_setup_as"]}
{"id": "C75", "title": "Near field in a periodic box", "statement": "In a periodic box the near-field matrix is the sum, over pairs of different beads, of the tabulated pair resistance at the one image of the second bead that lies in the cell centred on the first. It is symmetric and, with a dissipating table, never feeds energy in. Replacing any particles by images of theirs, or moving all of them together, changes nothing. If every bead sees every other one itself, it is the near field of the unbounded domain. A bead's own images are never counted, nor is a second image of the same bead at the same distance. It fails exactly for a box whose edges do not span space or a size ratio that is not tabulated.", "quantifier": "all boxes, shears, tables, suspensions and cutoffs", "why_tests_cant": "The image chosen depends continuously on shear and positions; a test looks at finitely many boxes.", "anchors": ["stokesian_dynamics/functions/generate_R2Bexact.py:generate_R2Bexact", "stokesian_dynamics/functions/shared.py:close_particles"]}
{"id": "C76", "title": "Grand resistance matrix of a periodic box", "statement": "In a periodic box the grand resistance matrix is the inverse of the far-field mobility matrix of the box (or the matrix kept from earlier, if it is not to be regenerated) plus the near field of the box. There is none exactly if the drag approximation is asked for, or some forces cause no motion in the far field, or the near field fails. It is symmetric, unchanged when all particles are moved together, and proportional to the viscosity. If the far field takes energy out of every motion and the table dissipates, it is positive definite and every complete input is solved.", "quantifier": "all boxes, shears, numbers of image layers, tables, suspensions, settings and inputs", "why_tests_cant": "Whether the inverse exists and the sum is positive definite depends on all positions and on the box at once.", "anchors": ["stokesian_dynamics/functions/generate_grand_resistance_matrix.py:generate_grand_resistance_matrix_periodic", "stokesian_dynamics/functions/generate_Minfinity_periodic.py:generate_Minfinity_periodic", "stokesian_dynamics/functions/generate_R2Bexact.py:generate_R2Bexact"]}
{"id": "C77", "title": "A large periodic box is an unbounded fluid", "statement": "Enlarge the periodic box and leave the particles where they are. If spheres have the radius of the beads, and interactions between beads are on or there are no dumbbells, every entry of the far-field mobility matrix tends to the one in an unbounded fluid. The grand resistance matrix then exists in every large enough box if it does in the unbounded fluid, and it tends to it; and so do the computed velocities and loads for every complete input. The error of the velocities due to forces is in proportion to one over the side of the box, with the same constant for all pairs. The exceptions are needed: between a sphere and a bead of another radius the limit has the two radii exchanged, and with the interactions off the beads of one dumbbell still move each other.", "quantifier": "all shapes and shears of the box, numbers of image layers, suspensions, viscosities, tables and inputs", "why_tests_cant": "It is a limit: no finite set of boxes shows it.", "anchors": ["stokesian_dynamics/functions/generate_Minfinity_periodic.py:generate_Minfinity_periodic", "stokesian_dynamics/functions/generate_grand_resistance_matrix.py:generate_grand_resistance_matrix_periodic", "stokesian_dynamics/functions/shared.py:close_particles"]}
{"id": "C78", "title": "A small error in the resistance matrix makes a small error in the answer", "statement": "Solve the same input, of any form, with two symmetric resistance matrices. If every unit motion takes at least the power c with one of them, the computed motions differ by at most the distance of the matrices divided by c, relative to the motion found with the other one; and any symmetric matrix nearer than c solves every complete input. If matrices tend to a positive definite one, the computed motions and loads tend to those computed with it.", "quantifier": "all input forms, numbers of particles, inputs and symmetric matrices", "why_tests_cant": "It bounds the effect of every perturbation of a matrix of any size, in every mode of prescribing forces and velocities.", "anchors": ["stokesian_dynamics/functions/timestepping.py:generate_output_FTSUOE", "stokesian_dynamics/functions/shared.py:fts_to_fte_matrix", "stokesian_dynamics/functions/shared.py:fts_to_duf_matrix"]}
{"id": "C79", "title": "Spheres are drawn as discs that face the camera", "statement": "The picture of a sphere or bead is the disc of its radius about its centre at right angles to the direction to the camera, for every elevation from -180 to 180 degrees and every azimuth. Between 180 and 360 degrees it is not, unless the camera is straight below. The matrix used turns by the angle whose sine is the length of the given vector, left-handedly about it, and preserves lengths and angles. The beads of a dumbbell are drawn where the hydrodynamics has them.", "quantifier": "all viewing angles, positions and radii", "why_tests_cant": "It is about every point of the disc and a continuum of viewing angles; a picture looks right from the angles that were tried.", "anchors": ["stokesian_dynamics/functions/graphics.py:rotation_matrix", "stokesian_dynamics/functions/graphics.py:pathpatch_2d_to_3d", "stokesian_dynamics/functions/graphics.py:normal", "stokesian_dynamics/functions/graphics.py:plot_dumbbell"]}
{"id": "C80", "title": "What shades, colours and arrows show", "statement": "The orientation lines of a sphere get lighter in proportion to how near their end is to the camera, unless the view is level; in a level view, the default, all have the same grey. Spheres go from blue to red as the force grows to 1. Beads go from green to red with the square of the force, and are red from half the largest signed component of any force on; if no component is positive, all are green, so the colours depend on the axes. There is one arrow for each sphere with a force in the slab -1 < y < 0.05, and its length is the force times 6 to the number of arrows drawn so far, so equal forces get unequal arrows. Arrows of torques and velocities are as long as the vectors.", "quantifier": "all viewing angles, numbers of particles, positions, orientations and forces", "why_tests_cant": "It relates what is seen to all forces at once; that the scale of an arrow depends on the number of arrows before it shows only with several spheres.", "anchors": ["stokesian_dynamics/functions/graphics.py:plot_sphere", "stokesian_dynamics/functions/graphics.py:plot_all_spheres", "stokesian_dynamics/functions/graphics.py:plot_all_dumbbells", "stokesian_dynamics/functions/graphics.py:plot_all_force_lines", "stokesian_dynamics/functions/graphics.py:plot_all_torque_lines"]}
{"id": "C81", "title": "What the frames of a video show", "statement": "A video of all saved frames of spheres shows in frame k each sphere at its place in saved frame k, with its marks and its force of that frame, or of the frame before if it is the last; in a periodic box also the copies, each with the force of its sphere. The radius is always drawn as 1. The copies are those by at most one box vector along x and z that are nearer than 1.4142 times the cube root of the volume; in a cube at rest these are the four neighbours. If the video skips frames or starts later, forces and positions are from different frames; if it starts later and has no end of its own, it fails. With any dumbbells there is no video. The box is drawn right if and only if its offset by the shear is a whole number of boxes: otherwise it is drawn sheared in the other direction.", "quantifier": "all saved runs, numbers of spheres and frames, choices of frames, boxes and shears", "why_tests_cant": "It holds for every frame of every run; a video of a short run that does not skip frames looks right.", "anchors": ["stokesian_dynamics/plotting/make_video.py:generate_frame", "stokesian_dynamics/plotting/plot_positions.py", "stokesian_dynamics/functions/graphics.py:plot_all_dumbbells"]}
{"id": "C82", "title": "Adding layers of images converges, and to the sum over all of them", "statement": "In a box sheared by any amount, each entry of the periodic far-field matrix tends, as the number of layers grows, to a limit, with an error below every power of the number of layers. For pairs the limit is the response to an infinite array: the sum over all images and all waves for velocities due to forces, rotations due to torques and strains due to stresses; the sum over the images alone where the code leaves out the waves. A particle's own entry is that of an isolated sphere plus what all its images add; for the rotation due to a torque a constant remains that more layers do not remove. The limit is symmetric, does not change when particles are replaced by images, tends to the unbounded fluid as the box grows and is positive definite in every large enough box. If the limit can be inverted, the grand resistance matrix is returned from some number of layers on and converges; if it is positive definite and the table does not feed in energy, every complete input is solved from some number of layers on and the answers converge.", "quantifier": "all boxes, shears, numbers and positions of particles that are not on images of each other, and all large enough numbers of layers", "why_tests_cant": "It is about infinitely many images and a limit; a test compares two numbers of layers in one box.", "anchors": ["stokesian_dynamics/functions/generate_Minfinity_periodic.py:generate_Minfinity_periodic", "stokesian_dynamics/functions/generate_Minfinity_periodic.py:generate_Minfinity_loop", "stokesian_dynamics/functions/generate_Minfinity_periodic.py:M11", "stokesian_dynamics/functions/generate_Minfinity_periodic.py:M12", "stokesian_dynamics/functions/generate_Minfinity_periodic.py:M13", "stokesian_dynamics/functions/generate_Minfinity_periodic.py:M22", "stokesian_dynamics/functions/generate_Minfinity_periodic.py:M23", "stokesian_dynamics/functions/generate_Minfinity_periodic.py:M33", "stokesian_dynamics/functions/generate_grand_resistance_matrix.py:generate_grand_resistance_matrix_periodic"]}
{"id": "C83", "title": "Where the sums over images and waves are split makes no difference", "statement": "The periodic far field splits the interactions into a sum over images and a sum over waves, at a place set by a parameter that the code fixes at the square root of pi over the cube root of the volume. The flow due to a point force in the infinite array is the same for every positive value of the parameter, at every point not on an image of the force, in a box sheared by any amount; so are all the motions of one particle due to loads on another, and what a particle's own images add to its motion. Summing the responses term by term gives the response through that flow. The limits of the code's entries as layers are added, for velocities due to forces, rotations due to torques and strains due to stresses, are therefore those computed with any value of the parameter.", "quantifier": "all boxes, shears, separations not on the lattice, radii, loads and pairs of positive values of the parameter", "why_tests_cant": "It is an identity between infinite sums for a continuum of values of the parameter, and the code never varies it.", "anchors": ["stokesian_dynamics/functions/generate_Minfinity_periodic.py:generate_Minfinity_periodic", "stokesian_dynamics/functions/generate_Minfinity_periodic.py:generate_Minfinity_loop", "stokesian_dynamics/functions/generate_Minfinity_periodic.py:M11", "stokesian_dynamics/functions/generate_Minfinity_periodic.py:M22", "stokesian_dynamics/functions/generate_Minfinity_periodic.py:M33"]}
{"id": "C84", "title": "The far field in a box is that of a flow that solves the Stokes equations", "statement": "For every box, sheared by any amount, there is a velocity and a pressure that repeat with the box, are smooth except on the points of the lattice, conserve volume, balance viscous force, pressure and a uniform force that opposes the point forces, and behave at each point of the lattice as the flow of a unit point force. As layers of images are added, the code's velocities due to forces, rotations due to torques and strains due to stresses between two particles tend to those of a sphere in that flow, and a particle's own velocity due to a force and strain due to a stress to those of an isolated sphere plus what remains of that flow at the particle. The flow is the sum over images and waves that the code truncates, wherever it is split.", "quantifier": "all boxes, shears, numbers and positions of particles that are not on images of each other, and every splitting parameter", "why_tests_cant": "It is about a solution of partial differential equations in all of space and a limit of infinitely many terms.", "anchors": ["stokesian_dynamics/functions/generate_Minfinity_periodic.py:generate_Minfinity_periodic", "stokesian_dynamics/functions/generate_Minfinity_periodic.py:generate_Minfinity_loop", "stokesian_dynamics/functions/generate_Minfinity_periodic.py:M11", "stokesian_dynamics/functions/generate_Minfinity_periodic.py:M22", "stokesian_dynamics/functions/generate_Minfinity_periodic.py:M33"]}
{"id": "C85", "title": "For equal beads the shipped table feeds no energy into a suspension, except at one range of distances", "statement": "With the numbers of the shipped table the near-field matrix of beads of one size is found, symmetric and positive semidefinite, for any number of spheres and dumbbells, any cutoff and either setting of the bead-bead switch, as long as no two beads are between 2.0092 and 2.0231 radii apart. Two equal spheres between 2.0093 and 2.0230 radii apart have motions in which the near field does work on them.", "quantifier": "all radii, numbers and positions of equal beads outside the range of distances, all cutoffs and viscosities, all motions; all pairs of equal spheres within it", "why_tests_cant": "It is about every motion at every distance between the tabulated ones, for every number of beads; the range in which it fails lies between values that a spot check would choose.", "anchors": ["stokesian_dynamics/resistance_scalars/data.py", "stokesian_dynamics/functions/generate_R2Bexact.py:XYZ", "stokesian_dynamics/functions/generate_R2Bexact.py:generate_R2Bexact"]}
{"id": "C86", "title": "Suspensions of equal beads are solved with the shipped table", "statement": "Beads of one size at least 2.001 radii apart: with the shipped table the complete resistance matrix is symmetric and positive definite at every cutoff, although its near-field part need not be, and every complete input of every allowed form is solved. The reason: the far field dissipates at least two fifths of what straining the spheres one by one would (this holds for all sizes), and the near field gives back at most two thirds of that.", "quantifier": "all numbers and positions of equal beads at least 2.001 radii apart, all cutoffs, viscosities and inputs (dumbbells with their interactions on)", "why_tests_cant": "It bounds the smallest eigenvalue of matrices of unbounded size over a continuum of configurations.", "anchors": ["stokesian_dynamics/resistance_scalars/data.py", "stokesian_dynamics/functions/generate_grand_resistance_matrix.py:generate_grand_resistance_matrix", "stokesian_dynamics/functions/generate_R2Bexact.py:generate_R2Bexact", "stokesian_dynamics/functions/generate_Minfinity.py:generate_Minfinity"]}
{"id": "C87", "title": "For size ratio 100 the shipped table gives a resistance matrix that is not positive definite", "statement": "A sphere and one a hundred times as large, between 2.012 and 2.021 average radii apart: the complete resistance matrix is computed, but if the small sphere turns about the line of centres and nothing else moves, the fluid does work on it. (The property a user expects, positive definiteness for every tabulated size ratio, fails here.)", "quantifier": "all radii, directions, distances in the range, viscosities, cutoffs of at least 1.011 and both settings of the bead-bead switch", "why_tests_cant": "The failure is confined to a narrow range of distances at one size ratio and to one motion; no test uses it.", "anchors": ["stokesian_dynamics/resistance_scalars/data.py", "stokesian_dynamics/functions/generate_grand_resistance_matrix.py:generate_grand_resistance_matrix", "stokesian_dynamics/functions/generate_R2Bexact.py:generate_R2Bexact"]}
{"id": "C88", "title": "With the shipped table a run of equal beads stops early only when beads touch", "statement": "Beads of one size, the shipped table, the full far field and a fixed viscosity: a simulation without a periodic box whose inputs are in order and which starts without touching beads is stopped by an exception only in a frame in which two beads come closer than 2.001 radii, for every scheme and however rarely the far field is inverted anew. This covers the setups 1 to 3 with the listed inputs. In the shear flow of input 7 with prescribed stresslets beads never come to touch, so such a run always reaches its last frame.", "quantifier": "all numbers of frames, all starting positions of equal beads, all inputs that are in order, all schemes (Adams-Bashforth without dumbbells)", "why_tests_cant": "It is about runs of any length through a continuum of configurations, each of which needs a positive definite matrix.", "anchors": ["stokesian_dynamics/run_simulation.py:generate_frame", "stokesian_dynamics/functions/generate_grand_resistance_matrix.py:generate_grand_resistance_matrix", "stokesian_dynamics/resistance_scalars/data.py"]}
{"id": "C89", "title": "The answer does not depend on the order in which the particles are listed", "statement": "List the spheres and the dumbbells in another order, with their prescribed values in the same order. Then the resistance matrix is found and the problem solved as before, in every input form and mode, and the solution is the old one in that order. It needs a table that satisfies the reciprocal theorem for the sizes present (always so for beads of one size), and, where velocities are prescribed, an order in which the particles that have them still come first. With the shipped table and equal beads at least 2.001 radii apart both problems have a solution.", "quantifier": "all numbers, sizes and positions of particles, all reorderings, all inputs that are in order, all input forms and modes", "why_tests_cant": "The number of orders grows factorially; the code treats particles by loops over pairs with the first index smaller, and packs them in blocks by type, so an error in one branch shows only in some orders.", "anchors": ["stokesian_dynamics/functions/simulation_tools.py:fts_to_fte_matrix", "stokesian_dynamics/functions/simulation_tools.py:fte_to_ufte_matrix", "stokesian_dynamics/functions/simulation_tools.py:ufte_to_ufteu_matrix", "stokesian_dynamics/functions/simulation_tools.py:fts_to_duf_matrix", "stokesian_dynamics/functions/timestepping.py:generate_output_FTSUOE", "stokesian_dynamics/functions/generate_grand_resistance_matrix.py:generate_grand_resistance_matrix"]}
{"id": "C90", "title": "Whole runs do not depend on the order in which the particles are listed, except through the first sphere", "statement": "Start the program from the same particles listed in another order, with an input function that answers for them in that order. As long as no beads touch, both programs run to the end, with every scheme and in every mode, and everything saved (positions, orientations, forces, stresslets) is the same in the new order. This holds in particular for gravity, the oscillating shear with springs and the constant shear of the listed inputs, with the shipped table and equal beads. The exception: all dumbbells are carried by the strain of the sphere that is listed first, so with dumbbells the first sphere has to stay the first, or the strain has to be prescribed and uniform. If two spheres with different strains change places, the dumbbells move differently by exactly the difference of these strains.", "quantifier": "all numbers of frames and particles, all reorderings, all inputs that are in order, all schemes (Adams-Bashforth without dumbbells)", "why_tests_cant": "A test would have to compare runs in all orders; the dependence on the first sphere shows only with dumbbells, two or more spheres and strains that differ.", "anchors": ["stokesian_dynamics/functions/simulation_tools.py:fts_to_fte_matrix", "stokesian_dynamics/functions/simulation_tools.py:fte_to_ufte_matrix", "stokesian_dynamics/functions/simulation_tools.py:ufte_to_ufteu_matrix", "stokesian_dynamics/functions/simulation_tools.py:fts_to_duf_matrix", "stokesian_dynamics/functions/timestepping.py:generate_output_FTSUOE", "stokesian_dynamics/run_simulation.py:generate_frame", "stokesian_dynamics/functions/timestepping.py:add_background_flow_dumbbells"]}
{"id": "C91", "title": "A simulation keeps the symmetry of its start; particles in a plane stay in it", "statement": "If the starting configuration and the inputs look the same after a rotation, a reflection or another rigid motion, then so does everything the program saves, in every frame, as long as no beads touch. In particular particles in the plane y = 0 (as in the setups 1, 2 and 4) driven by any of the listed inputs without a periodic box stay in that plane, their arrows and the forces on them too, whether or not the planar mode is on. Both hold with the shipped table for beads of one size, and the first with any table that dissipates.", "quantifier": "all numbers of frames and particles, all rigid motions, all inputs that are in order and have the symmetry, all schemes (Adams-Bashforth without dumbbells)", "why_tests_cant": "It is about runs of any length from any symmetric start; a small asymmetric error would be taken for rounding.", "anchors": ["stokesian_dynamics/run_simulation.py:generate_frame", "stokesian_dynamics/functions/generate_grand_resistance_matrix.py:generate_grand_resistance_matrix", "stokesian_dynamics/setups/inputs.py:input_ftsuoe"]}
{"id": "C92", "title": "A symmetric problem has a symmetric answer; a pair or a ring of equal spheres falls in formation for ever", "statement": "If a suspension looks the same after a rotation or reflection that may exchange particles, and what is prescribed (forms fts and fte) looks the same or exactly the opposite, then so do all the forces, torques, stresslets and velocities that the solver returns, also when the far field of an earlier frame is used again. So two equal spheres with opposite forces and equal torques move oppositely and turn alike, and with equal forces and opposite torques they move alike and turn oppositely. With gravity and the strain of the spheres prescribed to be zero, two equal spheres in any relative position keep their displacement exactly, in every frame and every scheme, hence never touch, and the program writes its file however many frames are asked for. The same holds for any number of equal spheres at the corners of a regular polygon in a horizontal plane, and for every assembly of spheres in which symmetries that leave gravity alone, or turn it round, force all spheres to move alike. This holds with the shipped table and with any table that dissipates.", "quantifier": "all suspensions with a symmetry, all prescribed values with that symmetry, all modes of the solver; all pairs and regular horizontal rings of equal spheres that start without touching, all numbers of frames, all schemes, all rates of inverting the far field anew", "why_tests_cant": "Symmetry of the answer must hold for every symmetric arrangement; a run of any length cannot be tested, and a slow drift would be taken for rounding.", "anchors": ["stokesian_dynamics/functions/generate_grand_resistance_matrix.py:generate_grand_resistance_matrix", "stokesian_dynamics/run_simulation.py:generate_frame", "stokesian_dynamics/setups/inputs.py:input_ftsuoe"]}
{"id": "C93", "title": "Spheres with prescribed velocities go exactly where they are told", "statement": "With input 5 in the form ufte the first half of the spheres is, after k error-free frames of any scheme, exactly k time steps to the left of the start, and the other spheres exactly as far to the right, whatever the other particles, the resistance table and the modes of the solver. With input 6 and its 99 spheres the same holds for the 45 and 45 spheres of the two walls. In every stage the answer shows no torque and no strain on any sphere and no load on any dumbbell, and with input 6 each of the nine free spheres carries the force (10, 0, 0).", "quantifier": "all numbers of frames, all starts with any spheres and dumbbells (99 spheres for input 6), all schemes, all tables and modes, open runs", "why_tests_cant": "It is about all runs and all particles; tests look at a few frames of a few suspensions.", "anchors": ["stokesian_dynamics/setups/inputs.py:input_ftsuoe", "stokesian_dynamics/run_simulation.py:generate_frame", "stokesian_dynamics/functions/timestepping.py:generate_output_FTSUOE"]}
{"id": "C94", "title": "Orientation arrows are passengers; a symmetry that exchanges particles is kept", "statement": "The arrows that record how far the spheres have turned have no influence on anything else: two runs that differ only in the arrows have the same particles, velocities and forces in every frame and in the file. And if a rigid motion puts every particle of the start where another particle was, and the flow has that symmetry, then in every saved frame it puts every particle where the same other particle was, and turns its force into the force on that one, as long as no beads touch. This holds for gravity, the oscillating shear with springs and the constant shear, with the shipped table and beads of one size. So two equal sheared spheres on opposite sides of the origin stay on opposite sides of it.", "quantifier": "all arrows and inputs that do not look at them; all starts with a symmetry, all numbers of frames, all schemes (symmetries: Adams-Bashforth without dumbbells)", "why_tests_cant": "It compares pairs of runs of any length, from any start; tests fix one choice of arrows and look at a few frames.", "anchors": ["stokesian_dynamics/run_simulation.py:generate_frame", "stokesian_dynamics/setups/inputs.py:input_ftsuoe"]}
{"id": "C95", "title": "Nearby places give nearby answers, except at the range of the near field", "statement": "If particles move to given places, every entry of the far-field matrix tends to that of the given places, also where beads overlap. If no pair of beads is there exactly at the range of the near field, so do the entries of the near-field matrix and of the grand resistance matrix, in every mode, and where the latter is positive definite every input that is solved there is solved nearby and all motions and loads tend to those found there. This holds in particular with the shipped table for beads of one size that do not overlap. At the range itself it fails: with the shipped table the answers for two unit spheres, one driven and one held, tend as their distance grows to the range to something else than the answer at the range.", "quantifier": "all suspensions of spheres and dumbbells in an unbounded domain, all ways in which they can come to given places, all tables with ascending distances, all modes, all forms and inputs", "why_tests_cant": "Continuity is a statement about all nearby places; tests compute the answer for a few fixed places.", "anchors": ["stokesian_dynamics/functions/generate_grand_resistance_matrix.py:generate_grand_resistance_matrix", "stokesian_dynamics/functions/generate_Minfinity.py:generate_Minfinity", "stokesian_dynamics/functions/generate_R2Bexact.py:generate_R2Bexact", "stokesian_dynamics/functions/simulation_tools.py:fts_to_fte_matrix", "stokesian_dynamics/functions/simulation_tools.py:fte_to_ufte_matrix", "stokesian_dynamics/functions/simulation_tools.py:ufte_to_ufteu_matrix", "stokesian_dynamics/functions/simulation_tools.py:fts_to_duf_matrix", "stokesian_dynamics/functions/timestepping.py:generate_output_FTSUOE"]}
{"id": "C96", "title": "Symmetric suspensions in a periodic box have symmetric answers; all spheres of a cubic array fall at the same rate", "statement": "A single sphere in a periodic box, also a sheared one, on which a force but no torque acts does not turn, and in a box at rest it moves along the axis along which it is pulled. Two equal spheres in a box, also a sheared one, pulled alike have the same velocity and turn oppositely. Eight equal spheres at the corners of a brick in a box at rest, pulled alike along an axis, have the same velocity along it, if the edges of the brick are at most half of the sides of the box and pairs that lie across the box in two directions are out of the range of the near field. So do the spheres of simple_cubic_8, hence those of example (c), which reads off the velocity of the first for all. More generally every answer for a suspension that looks the same after reversing some axes of the box (all of them, or any in a box at rest), and for loads that look the same or the opposite, has that symmetry.", "quantifier": "all boxes, sheared by any flow for which the code has box vectors, all numbers of layers of images, all tables and ranges, all modes of the solver with forms fts and fte, all viscosities", "why_tests_cant": "The far field in a box is a truncated sum over images and the near field picks one image of each pair; whether both respect a symmetry for every box and every truncation cannot be seen from a few runs.", "anchors": ["stokesian_dynamics/functions/generate_Minfinity_periodic.py:generate_Minfinity_periodic", "stokesian_dynamics/functions/generate_R2Bexact.py:generate_R2Bexact", "stokesian_dynamics/functions/shared.py:close_particles", "stokesian_dynamics/setups/functions_positions.py:simple_cubic_8", "examples/example-c.py"]}
{"id": "C97", "title": "As the time step shrinks, the runs of all three schemes converge to one and the same motion", "statement": "For spheres under inputs that do not change, the equations of motion that the solver defines have one solution for some time from every start in which no two spheres touch or are exactly at the range of the near field. As long as it lasts, runs of Euler's, the Adams-Bashforth and the Runge-Kutta scheme to a fixed time in n equal steps go through for all large n, and at all their frames they are within a constant times 1/n of it, however rarely the far field is inverted. So two runs with different schemes and steps end as near to each other as one likes. This includes example (b), three falling spheres, whose text says that the Adams-Bashforth runs converge to the solution of the Runge-Kutta runs.", "quantifier": "all numbers of spheres (of one size with the shipped table, of any sizes with a table that dissipates), all numbers of steps above one that depends on the case, all times up to which the motion exists, all three schemes, all intervals between inversions, all unchanging inputs among them the inputs 1, 5 and 7", "why_tests_cant": "A convergence study compares a handful of step sizes; it cannot show that there is a limit, that the limit solves the equations of motion, or that two schemes have the same one.", "anchors": ["stokesian_dynamics/run_simulation.py:generate_frame", "stokesian_dynamics/functions/timestepping.py", "examples/example-b.py"]}
{"id": "C98", "title": "Runs depend continuously on where the spheres start", "statement": "For spheres under inputs that do not change: if a run of any number of frames never has two spheres touching or exactly at the range of the near field, then the runs from all starts close enough to its start go through as well, and at the end all spheres are within a constant times the distance of the starts of where they are in the given run. This holds for all three schemes, also while an old inverse of the far field is used again. As long as the motion of C97 lasts, all runs with small enough steps have this property; among them those of example (b), whose text says that the solution is very sensitive to the initial conditions.", "quantifier": "all numbers of frames and spheres (of one size with the shipped table, of any sizes with a table that dissipates), all starts within a distance that depends on the run, all three schemes, all intervals between inversions, all unchanging inputs among them the inputs 1, 5 and 7", "why_tests_cant": "A test compares a few perturbed runs; it cannot show that no perturbation below some size makes a run fail or jump, nor bound the growth of all of them by one constant.", "anchors": ["stokesian_dynamics/run_simulation.py:generate_frame", "stokesian_dynamics/functions/timestepping.py", "examples/example-b.py"]}
{"id": "C99", "title": "The example scripts read the right numbers from the file", "statement": "Examples (a) and (c) of the documentation compute from a saved file what they plot. For a row of equal spheres under gravity (example a) the program writes its file for one frame, the drag coefficients are Stokes drag over velocity, they are the same from both ends of the row, so that the script may plot one half, and they are those of the solver if the timestep is 1; with another timestep they are divided by it. The script runs only for the fifteen spheres of the shipped setup. For the cubic array (example c) the script plots at the volume fraction of the array, and plots minus 6 pi times the velocity of the first sphere and the timestep as long as that sphere stays in its box; otherwise a multiple of the side is added.", "quantifier": "all rows of any number of equal spheres with gaps of at least a thousandth of the radius, all timesteps, all ranges of the near field, Euler and Adams-Bashforth; all saved files for the claims about the scripts; all sides of the cubic array for the fraction", "why_tests_cant": "A test runs the scripts on one file; it cannot show that the half that is not plotted agrees, that the numbers follow the timestep for all timesteps, or for which files the script fails.", "anchors": ["examples/example-a.py", "examples/example-c.py", "stokesian_dynamics/run_simulation.py:generate_frame"]}
{"id": "C100", "title": "The near-field functions are the multipole series", "statement": "For every size ratio, each of the twenty near-field resistance functions that the code computes from recurrences is, up to an error in proportion to the gap, the sum of a power series in the inverse distance. The coefficients from 0 to 100 (130, 150 or 200 for some) are those of the recurrences and the others continue the singular form. If the recurrences give the right coefficients, the remaining error is at most what the later right coefficients differ from the singular form by. The coefficients of the first orders are those found by reflecting the flow of each sphere at the other.", "quantifier": "all positive size ratios, all gaps up to the mean radius; all radii and distances for the first coefficients", "why_tests_cant": "A test compares numbers at some gaps and ratios; it cannot tell a wrong constant from the error that the approximation has anyway, and cannot show how the error shrinks.", "anchors": ["find_resistance_scalars/functions_nearfield.py"]}
{"id": "C101", "title": "The near-field functions for turning about the line of centres are those of the exact flow", "statement": "Two separate spheres of any radii turn about the line of their centres. The exact flow is a sum of swirls at image points, all inside the spheres: the sum is a Stokes flow in the whole fluid, moves with the spheres on them, and comes to rest far away; no other flow without pressure does. The torques of the fluid on the spheres, integrated over their surfaces, are 8 pi mu times the strengths of the swirls in them. So the exact torques are sums: the turning sphere needs more torque than alone, the other has to be held back, and the effect of each on the other is the same. The two near-field functions of the code differ from these torques by no more than a multiple of the gap, so they have the right limits and the right xi log xi terms.", "quantifier": "all pairs of radii; all distances of the centres for the flow, all small enough gaps for the error", "why_tests_cant": "A test compares numbers at some gaps; the claim is about the limit and the rate at which it is approached, for every size ratio, and about an infinite sum.", "anchors": ["find_resistance_scalars/functions_nearfield.py"]}
{"id": "C102", "title": "The far field of two spheres that turn about their line of centres is that of the exact flow up to high powers", "statement": "Two spheres of any radii are anywhere, at least the sum of their radii apart. The far-field mobility matrix that the code returns is given the torques about the line that in the exact flow (C101) turn the first sphere with unit angular velocity and hold the second, and no other loads. Then the first sphere turns too fast, but by no more and no less than multiples of a^3 b^5 / r^8; the second turns backwards, between multiples of a^8 b^3 / r^11; and nothing else moves: no sphere is displaced, turns about another axis, or is strained. The other way round, the inverse of the matrix exists and asks for torques about the line of centres only, if the first is to turn and the second is held; they are the exact ones up to multiples of a^6 b^5 / r^8 and a^6 b^6 (a^2 + b^2) / r^11, again from both sides. The effect that is approximated is much larger than these errors. So does the resistance matrix that the code builds, if the near field is switched off or does not reach from one sphere to the other.", "quantifier": "all pairs of radii, all distances from twice the sum of the radii on, all viscosities, all positions of the pair", "why_tests_cant": "A test compares one distance with a table; the claim bounds the error of the truncated multipoles from both sides at every distance, against an infinite sum.", "anchors": ["stokesian_dynamics/functions/generate_Minfinity.py", "stokesian_dynamics/functions/generate_grand_resistance_matrix.py"]}
{"id": "C103", "title": "The flow around a single sphere is exact, and its own mobility is that of the flow", "statement": "The interactions in the far-field matrix come from the flows of a force, a torque and a stresslet on a sphere (C48), and its diagonal blocks from the laws of Stokes and Einstein. These belong together. Each of the flows is a Stokes flow everywhere outside: incompressible, with a pressure that balances the viscous stress, and at rest far away. On the surface of the sphere, it is exactly the motion with the velocity, the angular velocity and the strain that the diagonal block of the matrix which the code returns gives for this load. For the beads of dumbbells this holds for forces, the only loads they carry.", "quantifier": "all spheres and dumbbells of all suspensions, all components of the load, all points outside of and on the sphere, all viscosities", "why_tests_cant": "A test compares numbers with numbers; that a formula solves a differential equation with a boundary condition on a whole sphere is not a finite set of them.", "anchors": ["stokesian_dynamics/functions/generate_Minfinity.py"]}
