{
 "claims": [
  {
   "property": "C01",
   "status": "proved",
   "theorems": [
    "SD.C01_uncondense_condense",
    "SD.C01_condense_uncondense"
   ],
   "note": ""
  },
  {
   "property": "C02",
   "status": "proved",
   "theorems": [
    "SD.C02_condensed_power",
    "SD.C02_grand_power"
   ],
   "note": ""
  },
  {
   "property": "C03",
   "status": "proved",
   "theorems": [
    "SD.C03_pack",
    "SD.C03_round_trip",
    "SD.C03_round_trip'"
   ],
   "note": ""
  },
  {
   "property": "C04",
   "status": "proved",
   "theorems": [
    "SD.C04_tiling",
    "SD.C04_inside",
    "SD.C04_only_blocks"
   ],
   "note": ""
  },
  {
   "property": "C05",
   "status": "proved",
   "theorems": [
    "SD.C05_fte_correct",
    "SD.C05_fts_correct"
   ],
   "note": ""
  },
  {
   "property": "C06",
   "status": "proved",
   "theorems": [
    "SD.C06_ufte_correct"
   ],
   "note": ""
  },
  {
   "property": "C07",
   "status": "proved",
   "theorems": [
    "SD.C07_ufteu_correct"
   ],
   "note": ""
  },
  {
   "property": "C08",
   "status": "proved",
   "theorems": [
    "SD.C08_duf_correct"
   ],
   "note": ""
  },
  {
   "property": "C09",
   "status": "proved",
   "theorems": [
    "SD.C09_spd_succeeds",
    "SD.C09_unique",
    "SD.C09_forms_agree"
   ],
   "note": ""
  },
  {
   "property": "C10",
   "status": "proved",
   "theorems": [
    "SD.C10_placeholders",
    "SD.C10_incomplete_stops",
    "SD.C10_extract_stops"
   ],
   "note": ""
  },
  {
   "property": "C11",
   "status": "proved",
   "theorems": [
    "SD.C11_mobility",
    "SD.C11_resistance",
    "SD.C11_inverse",
    "SD.C11_power"
   ],
   "note": ""
  },
  {
   "property": "C12",
   "status": "proved",
   "theorems": [
    "SD.C12_symmetric",
    "SD.C12_translation"
   ],
   "note": ""
  },
  {
   "property": "C13",
   "status": "proved",
   "theorems": [
    "SD.C13_reciprocal",
    "SD.C13_mirror_blocks"
   ],
   "note": ""
  },
  {
   "property": "C14",
   "status": "proved",
   "theorems": [
    "SD.C14_derivatives",
    "SD.C14_stokes"
   ],
   "note": ""
  },
  {
   "property": "C15",
   "status": "proved",
   "theorems": [
    "SD.C15_far",
    "SD.C15_near",
    "SD.C15_grand",
    "SD.C15_velocities"
   ],
   "note": ""
  },
  {
   "property": "C16",
   "status": "proved",
   "theorems": [
    "SD.C16_separation",
    "SD.C16_pairwise"
   ],
   "note": ""
  },
  {
   "property": "C17",
   "status": "proved",
   "theorems": [
    "SD.C17_components",
    "SD.C17_pair",
    "SD.C17_matrix"
   ],
   "note": ""
  },
  {
   "property": "C18",
   "status": "proved",
   "theorems": [
    "SD.C18_grand_of_reciprocal",
    "SD.C18_farfield",
    "SD.C18_nearfield_of_reciprocal",
    "SD.C18_needs_reciprocity",
    "SD.C18_grand",
    "SD.C18_subtracted",
    "SD.C18_grand_subtracted",
    "SD.C18_grand_lubrication"
   ],
   "note": "all tables made by the scripts (C18_grand, C18_grand_lubrication) and all tables satisfying the reciprocal theorem (C18_grand_of_reciprocal); C18_needs_reciprocity shows that the condition on the table is needed"
  },
  {
   "property": "C19",
   "status": "proved",
   "theorems": [
    "SD.C19_lone_sphere"
   ],
   "note": ""
  },
  {
   "property": "C20",
   "status": "proved",
   "theorems": [
    "SD.C20_entry",
    "SD.C20_symmetric",
    "SD.C20_local",
    "SD.C20_self",
    "SD.C20_missing_ratio"
   ],
   "note": ""
  },
  {
   "property": "C21",
   "status": "proved",
   "theorems": [
    "SD.C21_symmetries",
    "SD.C21_condensed"
   ],
   "note": ""
  },
  {
   "property": "C22",
   "status": "proved",
   "theorems": [
    "SD.C22_interp",
    "SD.C22_ratio"
   ],
   "note": ""
  },
  {
   "property": "C23",
   "status": "proved",
   "theorems": [
    "SD.C23_neighbours"
   ],
   "note": ""
  },
  {
   "property": "C24",
   "status": "proved",
   "theorems": [
    "SD.C24_periodic",
    "SD.C24_degenerate",
    "SD.C24_nearest_missed",
    "SD.C24_large_missed"
   ],
   "note": ""
  },
  {
   "property": "C25",
   "status": "proved",
   "theorems": [
    "SD.C25_near_field",
    "SD.C25_far_field",
    "SD.C25_drag",
    "SD.C25_symmetric",
    "SD.C25_stops"
   ],
   "note": ""
  },
  {
   "property": "C26",
   "status": "proved",
   "theorems": [
    "SD.C26_schedule",
    "SD.C26_every_frame",
    "SD.C26_refresh",
    "SD.C26_first_stage",
    "SD.C26_whole_frame"
   ],
   "note": ""
  },
  {
   "property": "C27",
   "status": "proved",
   "theorems": [
    "SD.C27_euler",
    "SD.C27_euler_dumbbells",
    "SD.C27_ab2",
    "SD.C27_ab2_dumbbells",
    "SD.C27_rk4",
    "SD.C27_rk4_dumbbells",
    "SD.C27_rk4_simpson",
    "SD.C27_rk4_cubic",
    "SD.C27_ab2_linear",
    "SD.C27_rk4_steady_flow",
    "SD.C27_rk4_not_classical"
   ],
   "note": ""
  },
  {
   "property": "C28",
   "status": "proved",
   "theorems": [
    "SD.C28_rotation",
    "SD.C28_rotation_ab2",
    "SD.C28_rigid",
    "SD.C28_flow",
    "SD.C28_still",
    "SD.C28_degenerate"
   ],
   "note": ""
  },
  {
   "property": "C29",
   "status": "proved",
   "theorems": [
    "SD.C29_fully_2d",
    "SD.C29_not_dumbbells"
   ],
   "note": ""
  },
  {
   "property": "C30",
   "status": "proved",
   "theorems": [
    "SD.C30_folded_box",
    "SD.C30_wrap",
    "SD.C30_images",
    "SD.C30_idempotent",
    "SD.C30_fixed",
    "SD.C30_degenerate",
    "SD.C30_simple_shear",
    "SD.C30_default"
   ],
   "note": ""
  },
  {
   "property": "C31",
   "status": "proved",
   "theorems": [
    "SD.C31_spheres",
    "SD.C31_dumbbells",
    "SD.C31_tracer"
   ],
   "note": ""
  },
  {
   "property": "C32",
   "status": "proved",
   "theorems": [
    "SD.C32_constant",
    "SD.C32_constant_integral",
    "SD.C32_oscillatory",
    "SD.C32_oscillatory_integral",
    "SD.C32_oscillatory_stops",
    "SD.C32_opposite_ignored"
   ],
   "note": ""
  },
  {
   "property": "C33",
   "status": "proved",
   "theorems": [
    "SD.C33_forces",
    "SD.C33_total",
    "SD.C33_pair"
   ],
   "note": ""
  },
  {
   "property": "C34",
   "status": "proved",
   "theorems": [
    "SD.C34_flag",
    "SD.C34_raised",
    "SD.C34_euler_iff",
    "SD.C34_off",
    "SD.C34_rk4_iff",
    "SD.C34_latch"
   ],
   "note": ""
  },
  {
   "property": "C35",
   "status": "proved",
   "theorems": [
    "SD.C35_saved",
    "SD.C35_forces_euler",
    "SD.C35_count",
    "SD.C35_positions_only"
   ],
   "note": ""
  },
  {
   "property": "C36",
   "status": "proved",
   "theorems": [
    "SD.C36_prefix",
    "SD.C36_removed",
    "SD.C36_age"
   ],
   "note": ""
  },
  {
   "property": "C37",
   "status": "partial",
   "theorems": [
    "SD.C37_resume_partial",
    "SD.C37_last_entry_lost"
   ],
   "note": "the properties a resumed run does reproduce, and the entry it loses, are separate theorems"
  },
  {
   "property": "C38",
   "status": "partial",
   "theorems": [
    "SD.C38_overrides_partial",
    "SD.C38_malformed",
    "SD.C38_sixth_read",
    "SD.C38_sixth_lost",
    "SD.C38_integers",
    "SD.C38_not_integers"
   ],
   "note": "the claim fails for the sixth argument: it is read (C38_sixth_read) and then overwritten (C38_sixth_lost)"
  },
  {
   "property": "C39",
   "status": "partial",
   "theorems": [
    "SD.C39_starts_iff",
    "SD.C39_lookup_partial",
    "SD.C39_edge",
    "SD.C39_dumbbells_unchecked"
   ],
   "note": "the check is characterised exactly; it does not cover dumbbells (C39_dumbbells_unchecked) and differs from the lookup at the edge of the tolerance (C39_edge)"
  },
  {
   "property": "C40",
   "status": "partial",
   "theorems": [
    "SD.C40_table",
    "SD.C40_closed",
    "SD.C40_swap_partial",
    "SD.C40_edge"
   ],
   "note": "swap invariance holds away from the edge of the tolerance and fails at it (C40_edge)"
  },
  {
   "property": "C41",
   "status": "proved",
   "theorems": [
    "SD.C41_valid",
    "SD.C41_definite",
    "SD.C41_missing_position",
    "SD.C41_single",
    "SD.C41_full_box",
    "SD.C41_every",
    "SD.C41_setup5"
   ],
   "note": ""
  },
  {
   "property": "C42",
   "status": "proved",
   "theorems": [
    "SD.C42_valid",
    "SD.C42_definite",
    "SD.C42_missing_position",
    "SD.C42_own_beads",
    "SD.C42_setup6"
   ],
   "note": ""
  },
  {
   "property": "C43",
   "status": "partial",
   "theorems": [
    "SD.C43_bounds",
    "SD.C43_last",
    "SD.C43_exact",
    "SD.C43_format_days",
    "SD.C43_format_hours",
    "SD.C43_format_minutes",
    "SD.C43_format_seconds_partial",
    "SD.C43_sixty_seconds",
    "SD.C43_format_hms"
   ],
   "note": ""
  },
  {
   "property": "C44",
   "status": "proved",
   "theorems": [
    "SD.C44_read_back",
    "SD.C44_round_trip",
    "SD.C44_two_spheres"
   ],
   "note": ""
  },
  {
   "property": "C45",
   "status": "proved",
   "theorems": [
    "SD.C45_inverse",
    "SD.C45_decode",
    "SD.C45_fails",
    "SD.C45_ignored",
    "SD.C45_balanced",
    "SD.C45_table",
    "SD.C45_reciprocal"
   ],
   "note": ""
  },
  {
   "property": "C46",
   "status": "proved",
   "theorems": [
    "SD.C46_reciprocal",
    "SD.C46_linear_flow",
    "SD.C46_smooth",
    "SD.C46_rough",
    "SD.C46_approach",
    "SD.C46_shearing",
    "SD.C46_nodes",
    "SD.C46_columns",
    "SD.C46_lookup"
   ],
   "note": "reciprocity, rigid motion, linear flow and the approach law are proved in full; C46_rough records one coefficient of the code that spoils the next-order (xi log xi) cancellation in the shear stresslet"
  },
  {
   "property": "C47",
   "status": "partial",
   "theorems": [
    "SD.C47_right_table_partial",
    "SD.C47_inverted",
    "SD.C47_missing"
   ],
   "note": "the choice is right when the far field has no drag form, inverted otherwise (C47_inverted), and a needed file is missing (C47_missing)"
  },
  {
   "property": "C48",
   "status": "proved",
   "theorems": [
    "SD.C48_entry",
    "SD.C48_rows"
   ],
   "note": ""
  },
  {
   "property": "C49",
   "status": "proved",
   "theorems": [
    "SD.C49_mobility",
    "SD.C49_inverse",
    "SD.C49_drag",
    "SD.C49_solvable"
   ],
   "note": ""
  },
  {
   "property": "C50",
   "status": "proved",
   "theorems": [
    "SD.C50_erfc_derivatives",
    "SD.C50_kernels",
    "SD.C50_multipoles",
    "SD.C50_incompressible",
    "SD.C50_unscreened",
    "SD.C50_waves"
   ],
   "note": ""
  },
  {
   "property": "C51",
   "status": "partial",
   "theorems": [
    "SD.C51_open_space",
    "SD.C51_force_force",
    "SD.C51_torque_torque",
    "SD.C51_stress_stress",
    "SD.C51_torque_stress_partial",
    "SD.C51_torque_stress_defect",
    "SD.C51_force_torque_partial",
    "SD.C51_force_stress_partial",
    "SD.C51_force_torque_defect",
    "SD.C51_force_stress_defect",
    "SD.C51_force_torque_waves",
    "SD.C51_force_stress_waves",
    "SD.C51_force_torque_wrong",
    "SD.C51_force_stress_wrong"
   ],
   "note": "Force-force, torque-torque and stress-stress blocks are proved. M12 and M13 lack the wave sum, M23 has another finite-size coefficient: the exact differences are proved and the disagreement is refuted concretely."
  },
  {
   "property": "C52",
   "status": "partial",
   "theorems": [
    "SD.C52_force_force",
    "SD.C52_stress_stress",
    "SD.C52_torque_torque_partial",
    "SD.C52_torque_torque_wrong",
    "SD.C52_torque_stress_partial",
    "SD.C52_no_self_coupling",
    "SD.C52_box_proper",
    "SD.C52_cube_torque_wrong"
   ],
   "note": "All blocks proved except torque-torque (the code omits a constant, proved wrong) and torque-stress (coefficient as in C51)."
  },
  {
   "property": "C53",
   "status": "partial",
   "theorems": [
    "SD.C53_images",
    "SD.C53_images_once",
    "SD.C53_waves_periodic",
    "SD.C53_wave_sum_periodic",
    "SD.C53_shear_volume",
    "SD.C53_symmetric",
    "SD.C53_cube_waves_partial",
    "SD.C53_lopsided"
   ],
   "note": "C53_lopsided shows that the wave cut-off does not respect the symmetry of long boxes; in cubes it does."
  },
  {
   "property": "C54",
   "status": "partial",
   "theorems": [
    "SD.C54_force_force",
    "SD.C54_torque_torque",
    "SD.C54_stress_stress",
    "SD.C54_velocity_partial",
    "SD.C54_torque_stress_partial",
    "SD.C54_sphere_bead_partial",
    "SD.C54_switch",
    "SD.C54_own",
    "SD.C54_own_torque_partial",
    "SD.C54_own_torque_stress_partial",
    "SD.C54_viscosity",
    "SD.C54_symmetric",
    "SD.C54_translation",
    "SD.C54_dumbbell_coordinates",
    "SD.C54_sphere_bead_wrong",
    "SD.C54_sphere_bead_example"
   ],
   "note": "Sphere-bead blocks use exchanged radii (C54_sphere_bead_wrong); the mixed blocks inherit the defects of C51 and C52."
  },
  {
   "property": "C55",
   "status": "proved",
   "theorems": [
    "SD.C55_farfield",
    "SD.C55_nearfield",
    "SD.C55_grand"
   ],
   "note": ""
  },
  {
   "property": "C56",
   "status": "proved",
   "theorems": [
    "SD.C56_nearfield",
    "SD.C56_farfield",
    "SD.C56_grand"
   ],
   "note": ""
  },
  {
   "property": "C57",
   "status": "partial",
   "theorems": [
    "SD.C57_aligned_partial",
    "SD.C57_order",
    "SD.C57_mixed"
   ],
   "note": "near-field distances have to precede the midfield ones; refuted without that (C57_mixed)"
  },
  {
   "property": "C58",
   "status": "partial",
   "theorems": [
    "SD.C58_scripts",
    "SD.C58_grand_partial",
    "SD.C58_no_stokes"
   ],
   "note": "the script part is proved; the simulation lacks the factor 6 pi on the drag diagonal (C58_no_stokes)"
  },
  {
   "property": "C59",
   "status": "proved",
   "theorems": [
    "SD.C59_mobility",
    "SD.C59_two_beads",
    "SD.C59_inverse",
    "SD.C59_solvable",
    "SD.C59_switch"
   ],
   "note": ""
  },
  {
   "property": "C60",
   "status": "proved",
   "theorems": [
    "SD.C60_modes",
    "SD.C60_near",
    "SD.C60_table",
    "SD.C60_solvable",
    "SD.C60_pair",
    "SD.C60_gain"
   ],
   "note": ""
  },
  {
   "property": "C61",
   "status": "proved",
   "theorems": [
    "SD.C61_superpose",
    "SD.C61_reverse",
    "SD.C61_rest"
   ],
   "note": ""
  },
  {
   "property": "C62",
   "status": "proved",
   "theorems": [
    "SD.C62_reciprocal",
    "SD.C62_dissipates",
    "SD.C62_least"
   ],
   "note": ""
  },
  {
   "property": "C63",
   "status": "proved",
   "theorems": [
    "SD.C63_turn",
    "SD.C63_enlarge"
   ],
   "note": ""
  },
  {
   "property": "C64",
   "status": "proved",
   "theorems": [
    "SD.C64_program",
    "SD.C64_frames",
    "SD.C64_untouched",
    "SD.C64_shipped"
   ],
   "note": ""
  },
  {
   "property": "C65",
   "status": "proved",
   "theorems": [
    "SD.C65_program",
    "SD.C65_stops",
    "SD.C65_single"
   ],
   "note": ""
  },
  {
   "property": "C66",
   "status": "proved",
   "theorems": [
    "SD.C66_complete",
    "SD.C66_stops",
    "SD.C66_runs"
   ],
   "note": ""
  },
  {
   "property": "C67",
   "status": "proved",
   "theorems": [
    "SD.C67_still",
    "SD.C67_velocities_ignored"
   ],
   "note": ""
  },
  {
   "property": "C68",
   "status": "proved",
   "theorems": [
    "SD.C68_inputs",
    "SD.C68_runs",
    "SD.C68_gravity",
    "SD.C68_origin",
    "SD.C68_origin_matters"
   ],
   "note": ""
  },
  {
   "property": "C69",
   "status": "proved",
   "theorems": [
    "SD.C69_weight",
    "SD.C69_spring",
    "SD.C69_repulsion",
    "SD.C69_none",
    "SD.C69_shear_turns",
    "SD.C69_spiral",
    "SD.C69_endless",
    "SD.C69_shear_dumbbells"
   ],
   "note": ""
  },
  {
   "property": "C70",
   "status": "proved",
   "theorems": [
    "SD.C70_inside",
    "SD.C70_outside",
    "SD.C70_boundary",
    "SD.C70_beads",
    "SD.C70_never_returns"
   ],
   "note": ""
  },
  {
   "property": "C71",
   "status": "proved",
   "theorems": [
    "SD.C71_shape",
    "SD.C71_apart",
    "SD.C71_spheres",
    "SD.C71_one_try",
    "SD.C71_one_try_open",
    "SD.C71_flat",
    "SD.C71_lost_height",
    "SD.C71_long",
    "SD.C71_height_not_periodic"
   ],
   "note": ""
  },
  {
   "property": "C72",
   "status": "proved",
   "theorems": [
    "SD.C72_apart",
    "SD.C72_room",
    "SD.C72_walls_touch",
    "SD.C72_listed",
    "SD.C72_lattice",
    "SD.C72_cubic_apart",
    "SD.C72_replay",
    "SD.C72_runs"
   ],
   "note": ""
  },
  {
   "property": "C73",
   "status": "proved",
   "theorems": [
    "SD.C73_exact",
    "SD.C73_solver",
    "SD.C73_solvable"
   ],
   "note": ""
  },
  {
   "property": "C74",
   "status": "proved",
   "theorems": [
    "SD.C74_completes",
    "SD.C74_beads",
    "SD.C74_clear",
    "SD.C74_returns"
   ],
   "note": ""
  },
  {
   "property": "C75",
   "status": "proved",
   "theorems": [
    "SD.C75_entry",
    "SD.C75_symmetric",
    "SD.C75_dissipates",
    "SD.C75_images",
    "SD.C75_unbounded",
    "SD.C75_alone",
    "SD.C75_fails",
    "SD.C75_one_image"
   ],
   "note": ""
  },
  {
   "property": "C76",
   "status": "proved",
   "theorems": [
    "SD.C76_parts",
    "SD.C76_stops",
    "SD.C76_symmetric",
    "SD.C76_translation",
    "SD.C76_viscosity",
    "SD.C76_solvable"
   ],
   "note": ""
  },
  {
   "property": "C77",
   "status": "proved",
   "theorems": [
    "SD.C77_entry",
    "SD.C77_exchanged",
    "SD.C77_own_beads",
    "SD.C77_grand",
    "SD.C77_answers",
    "SD.C77_matrix",
    "SD.C77_mobility",
    "SD.C77_rate"
   ],
   "note": ""
  },
  {
   "property": "C78",
   "status": "proved",
   "theorems": [
    "SD.C78_bound",
    "SD.C78_solved",
    "SD.C78_stiff",
    "SD.C78_continuous"
   ],
   "note": ""
  },
  {
   "property": "C79",
   "status": "proved",
   "theorems": [
    "SD.C79_rotation",
    "SD.C79_disc",
    "SD.C79_disc_beyond",
    "SD.C79_beads"
   ],
   "note": ""
  },
  {
   "property": "C80",
   "status": "proved",
   "theorems": [
    "SD.C80_shade",
    "SD.C80_shade_level",
    "SD.C80_shade_range",
    "SD.C80_sphere_colour",
    "SD.C80_bead_colour",
    "SD.C80_bead_axes",
    "SD.C80_force_arrows",
    "SD.C80_arrows_differ",
    "SD.C80_other_arrows"
   ],
   "note": ""
  },
  {
   "property": "C81",
   "status": "proved",
   "theorems": [
    "SD.C81_frames",
    "SD.C81_forces",
    "SD.C81_dumbbells",
    "SD.C81_overrun",
    "SD.C81_unbounded",
    "SD.C81_periodic",
    "SD.C81_images",
    "SD.C81_itself",
    "SD.C81_box",
    "SD.C81_cube"
   ],
   "note": ""
  },
  {
   "property": "C82",
   "status": "proved",
   "theorems": [
    "SD.C82_pair",
    "SD.C82_velocity",
    "SD.C82_torque_stress",
    "SD.C82_sphere_bead",
    "SD.C82_own",
    "SD.C82_own_torque",
    "SD.C82_matrix",
    "SD.C82_grand",
    "SD.C82_answers",
    "SD.C82_images",
    "SD.C82_large",
    "SD.C82_mobility"
   ],
   "note": ""
  },
  {
   "property": "C83",
   "status": "proved",
   "theorems": [
    "SD.C83_flow",
    "SD.C83_termwise",
    "SD.C83_motion",
    "SD.C83_own",
    "SD.C83_pair",
    "SD.C83_self"
   ],
   "note": ""
  },
  {
   "property": "C84",
   "status": "proved",
   "theorems": [
    "SD.C84_flow",
    "SD.C84_code"
   ],
   "note": ""
  },
  {
   "property": "C85",
   "status": "proved",
   "theorems": [
    "SD.C85_dissipates",
    "SD.C85_gain"
   ],
   "note": ""
  },
  {
   "property": "C86",
   "status": "proved",
   "theorems": [
    "SD.C86_far",
    "SD.C86_near",
    "SD.C86_solvable"
   ],
   "note": ""
  },
  {
   "property": "C87",
   "status": "proved",
   "theorems": [
    "SD.C87_gain"
   ],
   "note": ""
  },
  {
   "property": "C88",
   "status": "proved",
   "theorems": [
    "SD.C88_stops",
    "SD.C88_setups",
    "SD.C88_endless"
   ],
   "note": ""
  },
  {
   "property": "C89",
   "status": "proved",
   "theorems": [
    "SD.C89_renumber",
    "SD.C89_shipped"
   ],
   "note": ""
  },
  {
   "property": "C90",
   "status": "proved",
   "theorems": [
    "SD.C90_untouched",
    "SD.C90_shipped",
    "SD.C90_first",
    "SD.C90_listed"
   ],
   "note": ""
  },
  {
   "property": "C91",
   "status": "proved",
   "theorems": [
    "SD.C91_symmetric",
    "SD.C91_shipped",
    "SD.C91_plane"
   ],
   "note": ""
  },
  {
   "property": "C92",
   "status": "proved",
   "theorems": [
    "SD.C92_assembly",
    "SD.C92_assembly_shipped",
    "SD.C92_falling",
    "SD.C92_falling_shipped",
    "SD.C92_ring",
    "SD.C92_symmetric",
    "SD.C92_pair"
   ],
   "note": ""
  },
  {
   "property": "C93",
   "status": "proved",
   "theorems": [
    "SD.C93_apart",
    "SD.C93_walls",
    "SD.C93_answers"
   ],
   "note": ""
  },
  {
   "property": "C94",
   "status": "proved",
   "theorems": [
    "SD.C94_arrows",
    "SD.C94_files",
    "SD.C94_exchanged",
    "SD.C94_shipped",
    "SD.C94_listed",
    "SD.C94_pair"
   ],
   "note": ""
  },
  {
   "property": "C95",
   "status": "proved",
   "theorems": [
    "SD.C95_far",
    "SD.C95_near",
    "SD.C95_grand",
    "SD.C95_answers",
    "SD.C95_shipped",
    "SD.C95_jump"
   ],
   "note": ""
  },
  {
   "property": "C96",
   "status": "proved",
   "theorems": [
    "SD.C96_array",
    "SD.C96_example_c",
    "SD.C96_symmetric",
    "SD.C96_fall",
    "SD.C96_alone",
    "SD.C96_pair",
    "SD.C96_brick"
   ],
   "note": ""
  },
  {
   "property": "C97",
   "status": "proved",
   "theorems": [
    "SD.C97_converges",
    "SD.C97_shipped",
    "SD.C97_unique",
    "SD.C97_exists",
    "SD.C97_schemes",
    "SD.C97_listed"
   ],
   "note": ""
  },
  {
   "property": "C98",
   "status": "proved",
   "theorems": [
    "SD.C98_depends",
    "SD.C98_shipped",
    "SD.C98_along",
    "SD.C98_limit",
    "SD.C98_listed",
    "SD.C98_default_range"
   ],
   "note": ""
  },
  {
   "property": "C99",
   "status": "proved",
   "theorems": [
    "SD.C99_chain",
    "SD.C99_example_a",
    "SD.C99_fifteen",
    "SD.C99_fraction",
    "SD.C99_first_sphere",
    "SD.C99_box_writes",
    "SD.C99_example_c",
    "SD.C99_example_c_all"
   ],
   "note": ""
  },
  {
   "property": "C100",
   "status": "proved",
   "theorems": [
    "SD.C100_A",
    "SD.C100_B",
    "SD.C100_C",
    "SD.C100_G",
    "SD.C100_H",
    "SD.C100_M",
    "SD.C100_error",
    "SD.C100_reflections"
   ],
   "note": ""
  },
  {
   "property": "C101",
   "status": "proved",
   "theorems": [
    "SD.C101_swirl",
    "SD.C101_strength",
    "SD.C101_flow",
    "SD.C101_stokes",
    "SD.C101_unique",
    "SD.C101_held",
    "SD.C101_torques",
    "SD.C101_contact",
    "SD.C101_rate"
   ],
   "note": ""
  },
  {
   "property": "C102",
   "status": "proved",
   "theorems": [
    "SD.C102_mobility",
    "SD.C102_torques",
    "SD.C102_resistance",
    "SD.C102_effect"
   ],
   "note": ""
  },
  {
   "property": "C103",
   "status": "proved",
   "theorems": [
    "SD.C103_stokes",
    "SD.C103_sphere",
    "SD.C103_bead",
    "SD.C103_rest"
   ],
   "note": ""
  }
 ]
}