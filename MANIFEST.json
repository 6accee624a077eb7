{
 "claims": [
  {
   "property": "C01",
   "status": "proved",
   "theorems": [
    "Verif.Props.C01_upwind_consistent",
    "Verif.Props.C01_upwind_antisymmetric",
    "Verif.Props.C01_upwind_direction",
    "Verif.Props.C01_upwind_monotone",
    "Verif.Props.C01_upwind_between"
   ],
   "note": ""
  },
  {
   "property": "C02",
   "status": "proved",
   "theorems": [
    "Verif.Props.C02_convective2d_balance",
    "Verif.Props.C02_convective3d_balance",
    "Verif.Props.C02_convective2d_conservative",
    "Verif.Props.C02_convective3d_conservative"
   ],
   "note": ""
  },
  {
   "property": "C03",
   "status": "proved",
   "theorems": [
    "Verif.Props.C03_periodic_flux_cancels",
    "Verif.Props.C03_fully_periodic_conserves2d",
    "Verif.Props.C03_fully_periodic_conserves3d"
   ],
   "note": "Holds for order 1 and order 2; the pairing hypothesis (partner face = translate by the stored shift) is what the periodic set-up must provide (see C68)."
  },
  {
   "property": "C04",
   "status": "proved",
   "theorems": [
    "Verif.Props.C04_dissipative_balance",
    "Verif.Props.C04_dissipative_conservative"
   ],
   "note": ""
  },
  {
   "property": "C05",
   "status": "proved",
   "theorems": [
    "Verif.Props.C05_freestream_residual2d",
    "Verif.Props.C05_freestream_residual3d",
    "Verif.Props.C05_freestream_step2d",
    "Verif.Props.C05_freestream_step3d"
   ],
   "note": ""
  },
  {
   "property": "C06",
   "status": "proved",
   "theorems": [
    "Verif.Props.C06_timestep_le_max",
    "Verif.Props.C06_timestep_cfl",
    "Verif.Props.C06_timestep_cfl_mul",
    "Verif.Props.C06_timestep_attained",
    "Verif.Props.C06_timestep_pos",
    "Verif.Props.C06_timestep_order_independent",
    "Verif.Props.C06_timestep_renumbering"
   ],
   "note": "Cells with zero rate are excluded (the code divides by it: inf in IEEE, 0 in the model); mesure entries nonzero."
  },
  {
   "property": "C07",
   "status": "proved",
   "theorems": [
    "Verif.Props.C07_max_principle2d",
    "Verif.Props.C07_max_principle3d",
    "Verif.Props.C07_max_principle2d_run",
    "Verif.Props.C07_max_principle3d_run",
    "Verif.Props.C07_cfl_step_admissible"
   ],
   "note": "Pure advection (no dissipation/source), any discretely divergence-free face velocity; CFL admissibility proved for a constant velocity and cfl <= 2."
  },
  {
   "property": "C08",
   "status": "proved",
   "theorems": [
    "Verif.Props.C08_update_mass_balance",
    "Verif.Props.C08_update_fixed"
   ],
   "note": ""
  },
  {
   "property": "C09",
   "status": "proved",
   "theorems": [
    "Verif.Props.C09_triangle_geometry",
    "Verif.Props.C09_area_renumbering",
    "Verif.Props.C09_triangle_frame"
   ],
   "note": ""
  },
  {
   "property": "C10",
   "status": "proved",
   "theorems": [
    "Verif.Props.C10_tetra_geometry",
    "Verif.Props.C10_volume_renumbering",
    "Verif.Props.C10_volume_translation"
   ],
   "note": ""
  },
  {
   "property": "C11",
   "status": "proved",
   "theorems": [
    "Verif.Props.C11_domain_normal_outward",
    "Verif.Props.C11_face2",
    "Verif.Props.C11_face3",
    "Verif.Props.C11_frame"
   ],
   "note": ""
  },
  {
   "property": "C12",
   "status": "proved",
   "theorems": [
    "Verif.Props.C12_domain_closed",
    "Verif.Props.C12_closed_triangle",
    "Verif.Props.C12_closed_tetra"
   ],
   "note": ""
  },
  {
   "property": "C13",
   "status": "proved",
   "theorems": [
    "Verif.Props.C13_orientation",
    "Verif.Props.C13_orientation_stored"
   ],
   "note": ""
  },
  {
   "property": "C14",
   "status": "proved",
   "theorems": [
    "Verif.Props.C14_node_cells"
   ],
   "note": ""
  },
  {
   "property": "C15",
   "status": "proved",
   "theorems": [
    "Verif.Props.C15_neighbours_by_node",
    "Verif.Props.C15_width",
    "Verif.Props.C15_symmetric"
   ],
   "note": ""
  },
  {
   "property": "C16",
   "status": "proved",
   "theorems": [
    "Verif.Props.C16_faces_2d",
    "Verif.Props.C16_faces_3d",
    "Verif.Props.C16_shared_face"
   ],
   "note": ""
  },
  {
   "property": "C17",
   "status": "proved",
   "theorems": [
    "Verif.Props.C17_cells_of_face",
    "Verif.Props.C17_first_cell_valid"
   ],
   "note": ""
  },
  {
   "property": "C18",
   "status": "proved",
   "theorems": [
    "Verif.Props.C18_neighbour_by_face",
    "Verif.Props.C18_symmetric"
   ],
   "note": ""
  },
  {
   "property": "C19",
   "status": "proved",
   "theorems": [
    "Verif.Props.C19_opposite_2d",
    "Verif.Props.C19_opposite_3d"
   ],
   "note": ""
  },
  {
   "property": "C20",
   "status": "proved",
   "theorems": [
    "Verif.Props.C20_cell_part",
    "Verif.Props.C20_partition"
   ],
   "note": ""
  },
  {
   "property": "C21",
   "status": "proved",
   "theorems": [
    "Verif.Props.C21_node_parts"
   ],
   "note": ""
  },
  {
   "property": "C22",
   "status": "proved",
   "theorems": [
    "Verif.Props.C22_neighbours",
    "Verif.Props.C22_symmetric"
   ],
   "note": ""
  },
  {
   "property": "C23",
   "status": "proved",
   "theorems": [
    "Verif.Props.C23_halo_cells"
   ],
   "note": ""
  },
  {
   "property": "C24",
   "status": "proved",
   "theorems": [
    "Verif.Props.C24_send_receive",
    "Verif.Props.C24_keys_present"
   ],
   "note": ""
  },
  {
   "property": "C25",
   "status": "proved",
   "theorems": [
    "Verif.Props.C25_round_trip_serial",
    "Verif.Props.C25_round_trip_parallel",
    "Verif.Props.C25_local_mesh"
   ],
   "note": "serial and parallel round trip, plus the local mesh is the restriction of the global one (number text <-> value is trusted)"
  },
  {
   "property": "C26",
   "status": "proved",
   "theorems": [
    "Verif.Props.C26_halo_exchange"
   ],
   "note": "end to end from the partition through the written files and the MPI exchange (collectives by specification)"
  },
  {
   "property": "C27",
   "status": "proved",
   "theorems": [
    "Verif.Props.C27_halo_faces_2d",
    "Verif.Props.C27_halo_faces_3d",
    "Verif.Props.C27_halo_cells_of_node",
    "Verif.Props.C27_halo_faces_global_2d"
   ],
   "note": "2D and 3D marking, halo cells of a node, and the global characterisation (2D)"
  },
  {
   "property": "C28",
   "status": "proved",
   "theorems": [
    "Verif.Props.C28_names_2d",
    "Verif.Props.C28_names_3d"
   ],
   "note": ""
  },
  {
   "property": "C29",
   "status": "partial",
   "theorems": [
    "Verif.Props.C29_families_2d",
    "Verif.Props.C29_families_3d",
    "Verif.Props.C29_counterexample_lost_face",
    "Verif.Props.C29_counterexample_unlabelled",
    "Verif.Props.C29_families_of_names_partial",
    "Verif.Props.C29_families_of_names_3d_partial"
   ],
   "note": "false as stated: counter-examples C29_counterexample_*; exact condition C29_families_*; covering proved when boundary labels are equal or contain a deciding label"
  },
  {
   "property": "C30",
   "status": "proved",
   "theorems": [
    "Verif.Var.C30_neumann",
    "Verif.Var.C30_nonslip",
    "Verif.Var.C30_dirichlet",
    "Verif.Var.C30_update",
    "Verif.Var.C30_idempotent",
    "Verif.Var.C30_order"
   ],
   "note": ""
  },
  {
   "property": "C31",
   "status": "partial",
   "theorems": [
    "Verif.Var.C31_prescribed_partial",
    "Verif.Var.C31_order_partial",
    "Verif.Var.C31_counterexample_error",
    "Verif.Var.C31_counterexample_cells"
   ],
   "note": "false as stated (C31_counterexample_error, C31_counterexample_cells); proved for dictionaries with no Dirichlet entry after a Neumann/non-slip one"
  },
  {
   "property": "C32",
   "status": "partial",
   "theorems": [
    "Verif.Var.C32_inplace_partial",
    "Verif.Var.C32_after_rebinding",
    "Verif.Var.C32_arithmetic_ghosts_zero",
    "Verif.Var.C32_counterexample"
   ],
   "note": "false after solve/arithmetic (C32_after_rebinding, C32_arithmetic_ghosts_zero, C32_counterexample); proved for in-place updates"
  },
  {
   "property": "C33",
   "status": "partial",
   "theorems": [
    "Verif.Var.C33_legal_of_ok",
    "Verif.Var.C33_valueError_illegal",
    "Verif.Var.C33_exact_partial",
    "Verif.Var.C33_counterexample",
    "Verif.Var.C33_missing_location"
   ],
   "note": "ok => legal and ValueError => illegal without restriction; exactness proved when no Dirichlet entry follows a Neumann one (C33_counterexample otherwise)"
  },
  {
   "property": "C34",
   "status": "proved",
   "theorems": [
    "Verif.Var.C34_slip_never",
    "Verif.Var.C34_slip_attributeError"
   ],
   "note": ""
  },
  {
   "property": "C35",
   "status": "partial",
   "theorems": [
    "Verif.Var.C35_neumann_partial",
    "Verif.Var.C35_dirichlet_partial",
    "Verif.Var.C35_nonslip_reads_slot",
    "Verif.Var.C35_counterexample"
   ],
   "note": "Neumann and Dirichlet proved; non-slip false (C35_nonslip_reads_slot, C35_counterexample)"
  },
  {
   "property": "C36",
   "status": "proved",
   "theorems": [
    "Verif.Var.C36_pointwise",
    "Verif.Var.C36_division"
   ],
   "note": ""
  },
  {
   "property": "C37",
   "status": "proved",
   "theorems": [
    "Verif.Var.C37_zero_iff",
    "Verif.Var.C37_scaling",
    "Verif.Var.C37_triangle"
   ],
   "note": ""
  },
  {
   "property": "C38",
   "status": "proved",
   "theorems": [
    "Verif.Interp.C38_affine_exact",
    "Verif.Interp.C38_weights",
    "Verif.Interp.C38_constant"
   ],
   "note": ""
  },
  {
   "property": "C39",
   "status": "proved",
   "theorems": [
    "Verif.Interp.C39_affine_exact",
    "Verif.Interp.C39_constant"
   ],
   "note": ""
  },
  {
   "property": "C40",
   "status": "proved",
   "theorems": [
    "Verif.Interp.C40_affine_exact_2d",
    "Verif.Interp.C40_constant_2d",
    "Verif.Interp.C40_affine_exact_3d",
    "Verif.Interp.C40_constant_3d"
   ],
   "note": ""
  },
  {
   "property": "C41",
   "status": "partial",
   "theorems": [
    "Verif.Interp.C41_affine_exact_2d_partial",
    "Verif.Interp.C41_periodic_3d_counterexample"
   ],
   "note": "2D proved; the 3D statement is false of the code (C41_periodic_3d_counterexample: cell_gradient_3d overwrites its accumulators for periodic neighbours)"
  },
  {
   "property": "C42",
   "status": "proved",
   "theorems": [
    "Verif.Interp.C42_diamond_2d",
    "Verif.Interp.C42_other_point_2d",
    "Verif.Interp.C42_other_point_3d",
    "Verif.Interp.C42_affine_exact_2d",
    "Verif.Interp.C42_diamond_3d",
    "Verif.Interp.C42_affine_exact_3d"
   ],
   "note": ""
  },
  {
   "property": "C43",
   "status": "proved",
   "theorems": [
    "Verif.Interp.C43_minus_gradient_2d",
    "Verif.Interp.C43_agrees_with_face_gradient_2d",
    "Verif.Interp.C43_minus_gradient_3d"
   ],
   "note": ""
  },
  {
   "property": "C44",
   "status": "proved",
   "theorems": [
    "Verif.Interp.C44_limiter_bounds",
    "Verif.Interp.C44_limiter_one",
    "Verif.Interp.C44_limiter_zero_gradient"
   ],
   "note": ""
  },
  {
   "property": "C45",
   "status": "proved",
   "theorems": [
    "Verif.Interp.C45_mean",
    "Verif.Interp.C45_bounds",
    "Verif.Interp.C45_constant"
   ],
   "note": ""
  },
  {
   "property": "C46",
   "status": "proved",
   "theorems": [
    "Verif.LinSys.C46_rows_2d",
    "Verif.LinSys.C46_size_2d",
    "Verif.LinSys.C46_surplus",
    "Verif.LinSys.C46_size_3d"
   ],
   "note": ""
  },
  {
   "property": "C47",
   "status": "partial",
   "theorems": [
    "Verif.LinSys.C47_row_sums_2d",
    "Verif.LinSys.C47_halo_periodic_counterexample",
    "Verif.LinSys.C47_row_sums_3d_partial"
   ],
   "note": "2D proved for meshes where halo faces carry no periodic vertex (C47_halo_periodic_counterexample shows it is false otherwise); 3D without periodic boundaries"
  },
  {
   "property": "C48",
   "status": "partial",
   "theorems": [
    "Verif.LinSys.C48_balance_2d",
    "Verif.LinSys.C48_global_2d",
    "Verif.LinSys.C48_balance_3d_partial",
    "Verif.LinSys.C48_global_3d_partial"
   ],
   "note": "2D proved, global (all ranks) form proved; 3D proved without periodic boundaries"
  },
  {
   "property": "C49",
   "status": "partial",
   "theorems": [
    "Verif.Props.C49_user_2d",
    "Verif.Props.C49_user_3d_partial",
    "Verif.LinSys.C49_constant_2d",
    "Verif.LinSys.C49_constant_3d_partial"
   ],
   "note": "2D proved under the same mesh hypotheses; 3D without periodic boundaries"
  },
  {
   "property": "C50",
   "status": "proved",
   "theorems": [
    "Verif.LinSys.C50_local_global_2d",
    "Verif.LinSys.C50_local_global_3d"
   ],
   "note": ""
  },
  {
   "property": "C51",
   "status": "proved",
   "theorems": [
    "Verif.Props.C51_scatter",
    "Verif.Props.C51_numbering_parallel",
    "Verif.Props.C51_numbering_serial",
    "Verif.Props.C51_solution_balance_2d"
   ],
   "note": ""
  },
  {
   "property": "C52",
   "status": "proved",
   "theorems": [
    "Verif.Props.C52_history",
    "Verif.Props.C52_inputs_unchanged",
    "Verif.Props.C52_progress"
   ],
   "note": ""
  },
  {
   "property": "C53",
   "status": "proved",
   "theorems": [
    "Verif.SW.C53_arccos_defined",
    "Verif.SW.C53_eigenvalues",
    "Verif.SW.C53_consistent",
    "Verif.SW.C53_bottom_flux_zero"
   ],
   "note": "over the reals; the eigenvalues computed through arccos are shown to be u+c, u-c, 0"
  },
  {
   "property": "C54",
   "status": "proved",
   "theorems": [
    "Verif.SW.C54_bottom_fixed"
   ],
   "note": ""
  },
  {
   "property": "C55",
   "status": "proved",
   "theorems": [
    "Verif.SW.C55_residual_conservative",
    "Verif.SW.C55_mass_balance"
   ],
   "note": ""
  },
  {
   "property": "C56",
   "status": "proved",
   "theorems": [
    "Verif.SW.C56_residual_balances_source",
    "Verif.SW.C56_lake_at_rest",
    "Verif.SW.C56_lake_at_rest_forever"
   ],
   "note": "order 1 (the default); order 2 is C78"
  },
  {
   "property": "C57",
   "status": "proved",
   "theorems": [
    "Verif.SW.C57_friction_dissipative",
    "Verif.SW.C57_friction_strict"
   ],
   "note": ""
  },
  {
   "property": "C58",
   "status": "partial",
   "theorems": [
    "Verif.SW.C58_coriolis_power",
    "Verif.SW.C58_coriolis_works_counterexample",
    "Verif.SW.C58_coriolis_no_work_partial",
    "Verif.SW.C58_parameter_ignored"
   ],
   "note": "false of the code (C58_coriolis_works_counterexample, C58_parameter_ignored); exact condition proved"
  },
  {
   "property": "C59",
   "status": "partial",
   "theorems": [
    "Verif.SW.C59_dissipation_sign",
    "Verif.SW.C59_antidiffusive",
    "Verif.SW.C59_no_dissipation_partial"
   ],
   "note": "false of the code (C59_dissipation_sign, C59_antidiffusive); agrees only without dissipation"
  },
  {
   "property": "C60",
   "status": "proved",
   "theorems": [
    "Verif.SW.C60_time_step",
    "Verif.SW.C60_time_step_pos"
   ],
   "note": ""
  },
  {
   "property": "C61",
   "status": "proved",
   "theorems": [
    "Verif.Props.C61_speed_pos",
    "Verif.Props.C61_velocity",
    "Verif.Props.C61_velocity_zero",
    "Verif.Props.C61_speed",
    "Verif.Props.C61_antiparallel",
    "Verif.Props.C61_compute_velocity",
    "Verif.Props.C61_cell_average",
    "Verif.Props.C61_speed_not_monotone"
   ],
   "note": "also: the drift speed is not monotone in the field (C61_speed_not_monotone)"
  },
  {
   "property": "C62",
   "status": "proved",
   "theorems": [
    "Verif.Props.C62_source_equal",
    "Verif.Props.C62_source_law",
    "Verif.Props.C62_source_nonneg",
    "Verif.Props.C62_source_zero_iff",
    "Verif.Props.C62_step_charge",
    "Verif.Props.C62_charge_history",
    "Verif.Props.C62_total_charge",
    "Verif.Props.C62_ions_grow",
    "Verif.Props.C62_dissipative_balance",
    "Verif.Props.C62_dissipative_conservative"
   ],
   "note": ""
  },
  {
   "property": "C63",
   "status": "partial",
   "theorems": [
    "Verif.Output.C63_update_hits_last_instance",
    "Verif.Output.C63_older_instance_ignored",
    "Verif.Output.C63_last_instance_partial"
   ],
   "note": "false of the code: updating any instance updates the variables of the last instance (C63_update_hits_last_instance, C63_older_instance_ignored); proved for the last instance"
  },
  {
   "property": "C64",
   "status": "partial",
   "theorems": [
    "Verif.Output.C64_documents",
    "Verif.Output.C64_pieces",
    "Verif.Output.C64_two_documents_counterexample",
    "Verif.Output.C64_one_save_partial"
   ],
   "note": "false of the code (C64_two_documents_counterexample); exact content of the index after any history proved"
  },
  {
   "property": "C65",
   "status": "proved",
   "theorems": [
    "Verif.Props.C65_ghost_exchange",
    "Verif.Props.C65_node_ghosts",
    "Verif.Props.C65_partitioned_mesh",
    "Verif.Props.C65_slots",
    "Verif.Props.C65_halo_cells_of_cell"
   ],
   "note": "end to end from the partitioned mesh files; nodes shared by ranks only at a vertex without halo face (not named 10) take no part in the exchange"
  },
  {
   "property": "C66",
   "status": "proved",
   "theorems": [
    "Verif.Props.C66_ghost_mirror_2d",
    "Verif.Props.C66_mirror_unique",
    "Verif.Props.C66_ghost_mirror_3d",
    "Verif.Props.C66_K_on_face"
   ],
   "note": ""
  },
  {
   "property": "C67",
   "status": "partial",
   "theorems": [
    "Verif.Output.C67_label_rule",
    "Verif.Output.C67_label_sound",
    "Verif.Output.C67_rename_injective",
    "Verif.Output.C67_list_mesh_counterexample"
   ],
   "note": "proved for dictionary meshes; the branch for list meshes always raises UnboundLocalError"
  },
  {
   "property": "C68",
   "status": "partial",
   "theorems": [
    "Verif.Props.Per.C68_partners_2d_partial",
    "Verif.Props.Per.C68_partners_3d",
    "Verif.Props.Per.C68_upper_nodes_2d_incomplete",
    "Verif.Props.Per.C68_shift_x_2d",
    "Verif.Props.Per.C68_shift_x_3d",
    "Verif.Props.Per.C68_shift_x_image",
    "Verif.Props.Per.C68_shift_y_2d_wrong",
    "Verif.Props.Per.C68_rounding_y_fails",
    "Verif.Props.Per.C68_rounding_x_fails"
   ],
   "note": "3D partners and node cells, x shift: proved; false of the code: shift of y partners has the wrong sign (C68_shift_y_2d_wrong), upper nodes in 2D get at most one cell (C68_upper_nodes_2d_incomplete), KeyError when the period is not a float32 number (C68_rounding_x_fails, C68_rounding_y_fails)"
  },
  {
   "property": "C69",
   "status": "partial",
   "theorems": [
    "Verif.Props.C69_boundary_data_partial",
    "Verif.Props.C69_history_partial",
    "Verif.Props.C69_variable_resets",
    "Verif.Props.C69_counterexample"
   ],
   "note": "false as stated (C69_variable_resets, C69_counterexample: the data live on the domain and creating any Variable zeroes them); proved while nothing else is created"
  },
  {
   "property": "C70",
   "status": "partial",
   "theorems": [
    "Verif.Props.C70_locations_partial",
    "Verif.Props.C70_periodic_partial",
    "Verif.Props.C70_accepted_partial",
    "Verif.Props.C70_counterexample"
   ],
   "note": "false (C70_counterexample: a rank without a face 11 refuses the periodic dictionary); exact condition proved"
  },
  {
   "property": "C71",
   "status": "partial",
   "theorems": [
    "Verif.LinSys.C71_assembly_pure_partial",
    "Verif.LinSys.C71_assembly_moves_centres_counterexample"
   ],
   "note": "false of the 3D code (C71_assembly_moves_centres_counterexample); proved without periodic vertices"
  },
  {
   "property": "C72",
   "status": "partial",
   "theorems": [
    "Verif.Props.C72_constant_field_2d_partial",
    "Verif.Props.C72_constant_field_3d_partial",
    "Verif.Props.C72_user_2d_partial",
    "Verif.Props.C72_counterexample"
   ],
   "note": "false at corners where a Dirichlet face has a vertex with another boundary's label (C72_counterexample); proved otherwise"
  },
  {
   "property": "C73",
   "status": "partial",
   "theorems": [
    "Verif.Props.C73_constructor_rhs_partial",
    "Verif.Props.C73_mumps_other_ranks",
    "Verif.Props.C73_umfpack_counterexample"
   ],
   "note": "false for UMFPACK (constructor rhs ignored) and for MUMPS ranks other than 0 (TypeError); proved otherwise"
  },
  {
   "property": "C74",
   "status": "proved",
   "theorems": [
    "Verif.SW.C74_halo_fluxes_cancel",
    "Verif.SW.C74_global_conservative",
    "Verif.SW.C74_flux_antisymmetric"
   ],
   "note": ""
  },
  {
   "property": "C75",
   "status": "proved",
   "theorems": [
    "Verif.SW.C75_upwind_matrix",
    "Verif.SW.C75_predicted_state",
    "Verif.SW.C75_jacobian_is_derivative"
   ],
   "note": ""
  },
  {
   "property": "C76",
   "status": "partial",
   "theorems": [
    "Verif.SW.C76_step_needs_all_terms",
    "Verif.SW.C76_friction_only_counterexample",
    "Verif.SW.C76_coriolis_needs_manning_counterexample",
    "Verif.SW.C76_default_terms_partial"
   ],
   "note": "false of the code (two counterexamples); exact condition for a step proved (C76_step_needs_all_terms), default selection proved"
  },
  {
   "property": "C77",
   "status": "partial",
   "theorems": [
    "Verif.SW.C77_terms_argument_grows",
    "Verif.SW.C77_same_terms_partial"
   ],
   "note": "false of the code: the exact growth of the caller's list is proved (C77_terms_argument_grows)"
  },
  {
   "property": "C78",
   "status": "partial",
   "theorems": [
    "Verif.SW.C78_flat_bottom_partial",
    "Verif.SW.C78_order2_disturbs_lake"
   ],
   "note": "false of the code: a nonzero flow of water at every inner face with a bottom jump (C78_order2_disturbs_lake)"
  },
  {
   "property": "C79",
   "status": "proved",
   "theorems": [
    "Verif.Props.C79_poisson_rhs",
    "Verif.Props.C79_poisson_rhs_neutral"
   ],
   "note": ""
  },
  {
   "property": "C80",
   "status": "partial",
   "theorems": [
    "Verif.Props.C80_time_step_partial",
    "Verif.Props.C80_cfl_partial",
    "Verif.Props.C80_zero_field_counterexample"
   ],
   "note": "false of the code (C80_zero_field_counterexample); proved for the cells with a nonzero field"
  },
  {
   "property": "C81",
   "status": "partial",
   "theorems": [
    "Verif.Var.C81_mirror_partial",
    "Verif.Var.C81_stored",
    "Verif.Var.C81_right_iff",
    "Verif.Var.C81_counterexample",
    "Verif.Var.C81_halo_writes_nodes",
    "Verif.Var.C81_halo_stored",
    "Verif.Var.C81_halo_counterexample"
   ],
   "note": "false of the code (C81_counterexample: the mirrored value is multiplied by the cell value; C81_halo_counterexample: the halo kernel writes at node numbers); exact stored value and exact condition for correctness proved; the kernels are unreachable through Variable (C34)"
  },
  {
   "property": "C82",
   "status": "proved",
   "theorems": [
    "Verif.Props.Par.C82_residual_2d",
    "Verif.Props.Par.C82_residual_3d"
   ],
   "note": "2D and 3D, every valid mesh, partition, number of processes and fields; \"valid mesh\" (Spec/Parallel) excludes periodic sides"
  },
  {
   "property": "C83",
   "status": "partial",
   "theorems": [
    "Verif.Props.Par.C83_run_2d",
    "Verif.Props.Par.C83_every_cell",
    "Verif.Props.Par.C83_run_3d",
    "Verif.Props.Par.C83_every_cell_3d"
   ],
   "note": "2D and 3D, every valid mesh, partition, number of processes and iterations; order 2 and diffusion are C90; missing: periodic sides"
  },
  {
   "property": "C84",
   "status": "partial",
   "theorems": [
    "Verif.Var.C84_function_3d",
    "Verif.Var.C84_function_2d_actual",
    "Verif.Var.C84_function_2d_partial",
    "Verif.Var.C84_function_2d_iff",
    "Verif.Var.C84_counterexample"
   ],
   "note": "3D proved; false of the 2D code (C84_counterexample: the third argument is the x component of the face normal); exact condition C84_function_2d_iff"
  },
  {
   "property": "C85",
   "status": "proved",
   "theorems": [
    "Verif.Props.C85_wind_direction",
    "Verif.Props.C85_wind_modulus",
    "Verif.Props.C85_wind_rotation",
    "Verif.Props.C85_wind_zero_iff"
   ],
   "note": ""
  },
  {
   "property": "C86",
   "status": "proved",
   "theorems": [
    "Verif.Props.C86_coefficient_nonneg",
    "Verif.Props.C86_coefficient_pos_iff",
    "Verif.Props.C86_diffusion_dissipates"
   ],
   "note": ""
  },
  {
   "property": "C87",
   "status": "proved",
   "theorems": [
    "Verif.Props.Par.C87_update_values_2d",
    "Verif.Props.Par.C87_update_values_3d"
   ],
   "note": "2D and 3D, every valid mesh (no periodic sides), every boundary condition"
  },
  {
   "property": "C88",
   "status": "partial",
   "theorems": [
    "Verif.Props.Par.C88_corner_zero_2d",
    "Verif.Props.Par.C88_corner_zero_3d",
    "Verif.Props.Par.C88_counterexample",
    "Verif.Props.Par.C88_node_values_2d_partial",
    "Verif.Props.Par.C88_node_values_3d_partial"
   ],
   "note": "2D and 3D, for meshes without cells touching in a node only and boundary conditions that agree at the nodes shared between subdomains (Neumann, or Dirichlet with the function of the node's label); false otherwise (C88_corner_zero_2d/3d, C88_counterexample: the halo ghost of a Dirichlet face gets 0 when the shared node is labelled with a non-Dirichlet side)"
  },
  {
   "property": "C89",
   "status": "partial",
   "theorems": [
    "Verif.Props.Par.C89_cell_gradient_2d_partial",
    "Verif.Props.Par.C89_cell_gradient_3d_partial",
    "Verif.Props.Par.C89_face_gradient_2d_partial",
    "Verif.Props.Par.C89_face_gradient_3d_partial"
   ],
   "note": "same hypotheses as C88; periodic sides missing"
  },
  {
   "property": "C90",
   "status": "partial",
   "theorems": [
    "Verif.Props.Par.C90_any_schedule_2d_partial",
    "Verif.Props.Par.C90_any_schedule_3d_partial",
    "Verif.Props.Par.C90_run_2d_partial",
    "Verif.Props.Par.C90_run_3d_partial"
   ],
   "note": "same hypotheses as C88; periodic sides missing"
  },
  {
   "property": "C91",
   "status": "proved",
   "theorems": [
    "Verif.Props.Par.C91_freestream_2d",
    "Verif.Props.Par.C91_freestream_3d"
   ],
   "note": "2D and 3D, whole pipeline from the mesh and its partition to the N-th iteration; hypotheses of the pipeline (at least two processes, valid mesh, non-periodic) as for C82"
  },
  {
   "property": "C92",
   "status": "proved",
   "theorems": [
    "Verif.Props.Par.C92_mass_balance_2d",
    "Verif.Props.Par.C92_mass_conserved_2d",
    "Verif.Props.Par.C92_mass_balance_3d",
    "Verif.Props.Par.C92_mass_conserved_3d"
   ],
   "note": "2D and 3D; any state, any order for the closed domain"
  },
  {
   "property": "C93",
   "status": "proved",
   "theorems": [
    "Verif.Props.Par.C93_bounds_2d",
    "Verif.Props.Par.C93_bounds_3d"
   ],
   "note": "2D and 3D; time step as computed by the driver; the diffusive term is not applied (as in the 3D driver), its coefficients still enter the time step"
  },
  {
   "property": "C94",
   "status": "partial",
   "theorems": [
    "Verif.Props.Par.C94_freestream_order2_2d_partial",
    "Verif.Props.Par.C94_freestream_order2_3d_partial"
   ],
   "note": "2D and 3D, for meshes without cells touching in a node only and boundary conditions agreeing at corners shared by processes; without the latter the halo ghosts of a Dirichlet face next to a shared corner are 0 (C88_corner_zero_2d/3d) and the gradient of the constant is not 0 there"
  },
  {
   "property": "C95",
   "status": "proved",
   "theorems": [
    "Verif.Props.Par.C95_run_ends_2d",
    "Verif.Props.Par.C95_run_ends_3d"
   ],
   "note": "2D and 3D, any order, with or without the diffusive term; the scalars are any Archimedean ordered field"
  },
  {
   "property": "C96",
   "status": "proved",
   "theorems": [
    "Verif.Props.Par.C96_every_schedule_2d",
    "Verif.Props.Par.C96_every_schedule_3d"
   ],
   "note": "2D and 3D; asynchronous semantics of the collectives in Model/Proc.lean, program of one process in Model/Job.lean; also C90_any_schedule_* (equal to the serial program in any order)"
  },
  {
   "property": "C97",
   "status": "partial",
   "theorems": [
    "Verif.Props.Par.C97_unread_file_blocks",
    "Verif.Props.Par.C97_all_stop_partial"
   ],
   "note": "false of the code: a process that raises before a collective leaves the others waiting for ever in every interleaving (C97_unread_file_blocks); if all raise all stop"
  },
  {
   "property": "C98",
   "status": "partial",
   "theorems": [
    "Verif.Props.Par.C98_assembly_2d_partial",
    "Verif.Props.Par.C98_assembly_3d_partial",
    "Verif.Props.Par.C98_solution_2d_partial",
    "Verif.Props.Par.C98_solution_3d_partial",
    "Verif.Props.Par.C98_solves_2d",
    "Verif.Props.Par.C98_solves_3d"
   ],
   "note": "2D and 3D; no periodic sides, and the cells around every node must be connected through faces containing it (StarConnected); the numerical solver is a function of the matrix entries and the right-hand side"
  },
  {
   "property": "C99",
   "status": "partial",
   "theorems": [
    "Verif.Props.Par.C99_field_2d_partial",
    "Verif.Props.Par.C99_field_3d_partial",
    "Verif.Props.Par.C99_solve_field_2d_partial",
    "Verif.Props.Par.C99_solve_field_3d_partial",
    "Verif.Props.Par.C99_dirichlet_corners_2d",
    "Verif.Props.Par.C99_dirichlet_corners_3d"
   ],
   "note": "2D and 3D; solvers that write the solution in place (MUMPS, PETSc; spsolve and umfpack rebind var.cell, C32); no periodic sides, StarConnected, and at a boundary node shared between subdomains whose label is not Dirichlet the boundary faces must be Neumann (false otherwise: C88_corner_zero); with Dirichlet conditions on the whole boundary nothing is required at the corners"
  },
  {
   "property": "C100",
   "status": "proved",
   "theorems": [
    "Verif.Props.Par.C100_domain_2d",
    "Verif.Props.Par.C100_domain_3d"
   ],
   "note": "2D and 3D, one process; the labels of the corners must be the ones listed in cornerLabels (a 3D face of side 55/66 with a corner labelled 3 or 4 is not covered)"
  },
  {
   "property": "C101",
   "status": "proved",
   "theorems": [
    "Verif.Props.Par.C101_mass_diffusion_2d_partial",
    "Verif.Props.Par.C101_mass_balance_2d",
    "Verif.Props.Par.C101_mass_conserved_2d",
    "Verif.Props.Par.C101_all_periodic_2d",
    "Verif.Props.Par.C101_mass_balance_3d",
    "Verif.Props.Par.C101_mass_conserved_3d",
    "Verif.Props.Par.C101_all_periodic_3d"
   ],
   "note": "2D and 3D, first order without diffusion, one process; exact arithmetic. With diffusion (C101_mass_diffusion_2d_partial) the balance has an extra term, the gradients of the periodic faces, which is not shown to vanish"
  },
  {
   "property": "C102",
   "status": "partial",
   "theorems": [
    "Verif.Props.Par.C102_constant_diffusion_2d_partial",
    "Verif.Props.Par.C102_constant_diffusion_mesh_2d_partial",
    "Verif.Props.Par.C102_constant_preserved_2d",
    "Verif.Props.Par.C102_maximum_principle_2d",
    "Verif.Props.Par.C102_constant_preserved_3d_partial",
    "Verif.Props.Par.C102_maximum_principle_3d"
   ],
   "note": "constants: any order in 2D, first order in 3D (cell_gradient_3d does not vanish on constants next to periodic sides, C41_periodic_3d_counterexample); bounds: 2D and 3D, first order as stated; with diffusion: 2D, constants, when the points around every node are not on a line"
  },
  {
   "property": "C103",
   "status": "partial",
   "theorems": [
    "Verif.Props.Par.C103_missing_partner_raises",
    "Verif.Props.Par.C103_split_sides_raise_2d",
    "Verif.Props.Par.C103_torus_split_raises"
   ],
   "note": "false of the code: a process that holds a periodic face and not its partner raises a KeyError (C103_missing_partner_raises, any tables, all sides, 2D and 3D; C103_split_sides_raise_2d from the mesh data; C103_torus_split_raises concrete); nothing proved for partitions that keep partners together"
  },
  {
   "property": "C104",
   "status": "partial",
   "theorems": [
    "Verif.Props.Par.C104_insulated_serial_2d",
    "Verif.Props.Par.C104_insulated_serial_3d",
    "Verif.Props.Par.C104_insulated_2d_partial",
    "Verif.Props.Par.C104_insulated_3d_partial",
    "Verif.Props.Par.C104_isotropic",
    "Verif.Props.Par.C104_axis_aligned"
   ],
   "note": "one process: all valid meshes, 2D and 3D; several processes (C104_insulated_2d/3d_partial): the cells around a node must be connected through faces, otherwise node values of different processes differ (C88); no periodic sides"
  },
  {
   "property": "C105",
   "status": "partial",
   "theorems": [
    "Verif.Props.Par.C105_constant_serial_2d",
    "Verif.Props.Par.C105_constant_serial_3d",
    "Verif.Props.Par.C105_constant_2d_partial",
    "Verif.Props.Par.C105_constant_3d_partial"
   ],
   "note": "one process: all valid meshes with cells spread around the nodes (else the interpolation weights divide by zero), 2D and 3D; several processes: cells around a node connected through faces and boundary conditions agreeing at shared corners (C88); no periodic sides"
  },
  {
   "property": "C106",
   "status": "partial",
   "theorems": [
    "Verif.Props.Par.C106_run_partial",
    "Verif.Props.Par.C106_first_order"
   ],
   "note": "order 1 without dispersion: complete (C106_first_order, cells, time, time step); any order with dispersion and node values (C106_run_partial): the cells around a node must be connected through faces and the conditions of h and hc must agree at shared corners (C88); real arithmetic; no periodic sides"
  },
  {
   "property": "C107",
   "status": "partial",
   "theorems": [
    "Verif.Props.Par.C107_closed_basin",
    "Verif.Props.Par.C107_closed_basin_serial",
    "Verif.Props.Par.C107_order2_wall_leaks",
    "Verif.Props.Par.C107_order2_counterexample"
   ],
   "note": "order 1: complete, one or several processes (C107_closed_basin, C107_closed_basin_serial); at order 2, the order of test_sw_2d.py, the claim is false: the depth is reconstructed on the inner side of a wall only and water crosses it (C107_order2_wall_leaks, C107_order2_counterexample)"
  },
  {
   "property": "C108",
   "status": "partial",
   "theorems": [
    "Verif.Props.Par.C108_bottom_fixed",
    "Verif.Props.Par.C108_lake_at_rest",
    "Verif.Props.Par.C108_lake_at_rest_serial",
    "Verif.Props.Par.C108_start_at_rest"
   ],
   "note": "order 1: complete, one or several processes; at order 2 false over a sloping bottom (C78_order2_disturbs_lake); the bottom: any order, any state"
  },
  {
   "property": "C109",
   "status": "partial",
   "theorems": [
    "Verif.Props.Par.C109_darcy_run_2d_partial",
    "Verif.Props.Par.C109_darcy_run_3d_partial"
   ],
   "note": "2D and 3D, any order, with or without diffusion; no periodic sides, StarConnected, the corner conditions of C90 for ne and of C99 for P, solvers that write in place (MUMPS, PETSc)"
  },
  {
   "property": "C110",
   "status": "partial",
   "theorems": [
    "Verif.Props.Par.C110_gauss_serial_2d_partial",
    "Verif.Props.Par.C110_gauss_serial_3d_partial",
    "Verif.Props.Par.C110_gauss_2d_partial",
    "Verif.Props.Par.C110_gauss_3d_partial",
    "Verif.Props.Par.C110_dirichlet_corners_2d",
    "Verif.Props.Par.C110_dirichlet_corners_3d"
   ],
   "note": "Dirichlet and Neumann conditions, every Dirichlet face has nodes with Dirichlet labels (at a corner node with a Neumann label the matrix and the field use different outside values); the solver solves the system and writes in place (MUMPS, PETSc), the system has a solution, exact arithmetic; StarConnected in parallel; no periodic sides"
  },
  {
   "property": "C111",
   "status": "partial",
   "theorems": [
    "Verif.Props.Par.C111_darcy_constant_serial_2d_partial",
    "Verif.Props.Par.C111_darcy_constant_2d_partial",
    "Verif.Props.Par.C111_solvable_2d",
    "Verif.Props.Par.C111_darcy_constant_serial_3d_partial",
    "Verif.Props.Par.C111_darcy_constant_3d_partial",
    "Verif.Props.Par.C111_solvable_3d"
   ],
   "note": "under the conditions of C110 and (with diffusion) cells spread around every node; on several processes StarConnected and the corner condition of C88 for the concentration"
  },
  {
   "property": "C112",
   "status": "partial",
   "theorems": [
    "Verif.Props.Par.C112_darcy_mass_serial_2d_partial",
    "Verif.Props.Par.C112_darcy_mass_2d_partial",
    "Verif.Props.Par.C112_darcy_mass_serial_3d_partial",
    "Verif.Props.Par.C112_darcy_mass_3d_partial"
   ],
   "note": "order 1, without face gradients (what test_darcy_2d.py does except for its order) or with Neumann conditions of the concentration and NormalDiffusion; any solver answers; on several processes StarConnected and the corner conditions of C109; no periodic sides"
  },
  {
   "property": "C113",
   "status": "partial",
   "theorems": [
    "Verif.Props.Par.C113_streamer_run_2d_partial",
    "Verif.Props.Par.C113_streamer_run_3d_partial"
   ],
   "note": "2D and 3D, any order, PETSc and MUMPS; cell gradients computed in every iteration (test_streamer_2d.py, or StreamerModel with order 2), StarConnected, the corner conditions of C90 for ne and of C99 for P; no periodic sides"
  },
  {
   "property": "C114",
   "status": "partial",
   "theorems": [
    "Verif.Props.Par.C114_charge_balance_serial_2d_partial",
    "Verif.Props.Par.C114_charge_balance_2d_partial",
    "Verif.Props.Par.C114_charge_conserved_serial_2d_partial",
    "Verif.Props.Par.C114_charge_conserved_2d_partial",
    "Verif.Props.Par.C114_charge_balance_serial_3d_partial",
    "Verif.Props.Par.C114_charge_balance_3d_partial",
    "Verif.Props.Par.C114_charge_conserved_serial_3d_partial",
    "Verif.Props.Par.C114_charge_conserved_3d_partial"
   ],
   "note": "electrons with Neumann conditions (the default); balance: order 1, any conditions of the potential; conservation: any order, insulated potential; any solver answers; cell gradients computed in every iteration; on several processes StarConnected and the corner condition of C99"
  },
  {
   "property": "C115",
   "status": "partial",
   "theorems": [
    "Verif.Props.Par.C115_gauss_serial_2d_partial",
    "Verif.Props.Par.C115_gauss_2d_partial",
    "Verif.Props.Par.C115_gauss_serial_3d_partial",
    "Verif.Props.Par.C115_gauss_3d_partial"
   ],
   "note": "in every iteration in which the system of the potential has a solution and the solver solves it and writes in place; CornersMatch as in C110; StarConnected in parallel; no periodic sides"
  },
  {
   "property": "C116",
   "status": "partial",
   "theorems": [
    "Verif.Props.Par.C116_solver_choice_2d_partial",
    "Verif.Props.Par.C116_solver_choice_3d_partial",
    "Verif.Props.Par.C116_sequential_solvers",
    "Verif.Props.Par.C116_insulated_flux_2d",
    "Verif.Props.Par.C116_insulated_flux_3d",
    "Verif.Props.Par.C116_insulated_leak"
   ],
   "note": "2D and 3D, one process: Dirichlet pressure on all sides, or both solvers in place; spsolve = umfpack always; the claim is false for spsolve/umfpack with insulated sides (C116_insulated_leak), where the flux is characterised exactly (C116_insulated_flux_*)"
  },
  {
   "property": "C117",
   "status": "partial",
   "theorems": [
    "Verif.Props.Par.C117_mesh_2d",
    "Verif.Props.Par.C117_mesh_3d",
    "Verif.Props.Par.C117_sides_2d_partial",
    "Verif.Props.Par.C117_sides_3d_partial",
    "Verif.Props.Par.C117_lost_side"
   ],
   "note": "no periodic sides; BoxSides: opposite sides apart, every element tagged 3-6 has a node on no side of higher priority (false without it: C117_lost_side); meshio is not modelled"
  },
  {
   "property": "C118",
   "status": "partial",
   "theorems": [
    "Verif.Props.Par.C118_first_iteration_2d",
    "Verif.Props.Par.C118_first_iteration_3d",
    "Verif.Props.Par.C118_depends_on_processes"
   ],
   "note": "the property is false as the code stands (C118_depends_on_processes); only the first iteration is characterised exactly; no periodic sides, MUMPS/PETSc, node stars connected, corner conditions"
  },
  {
   "property": "C119",
   "status": "partial",
   "theorems": [
    "Verif.Props.Par.C119_darcy_bounds_serial_2d_partial",
    "Verif.Props.Par.C119_darcy_bounds_2d_partial",
    "Verif.Props.Par.C119_darcy_bounds_serial_3d_partial",
    "Verif.Props.Par.C119_darcy_bounds_3d_partial",
    "Verif.Props.Par.C119_overshoot"
   ],
   "note": "first order without face gradients; Dirichlet/Neumann pressure with matching corners, solvable systems, solver that writes in place; only while StepFits holds: false without it (C119_overshoot: one triangle, cfl 1/2, 9/4 after one iteration); StarConnected and corner condition in parallel; no periodic sides"
  },
  {
   "property": "C120",
   "status": "proved",
   "theorems": [
    "Verif.Props.Par.C120_uniform_tracer",
    "Verif.Props.Par.C120_uniform_tracer_serial"
   ],
   "note": ""
  },
  {
   "property": "C121",
   "status": "proved",
   "theorems": [
    "Verif.Props.Par.C121_superposition_2d",
    "Verif.Props.Par.C121_superposition_3d",
    "Verif.Props.Par.C121_superposition_periodic"
   ],
   "note": ""
  },
  {
   "property": "C122",
   "status": "proved",
   "theorems": [
    "Verif.Props.Par.C122_comparison_2d",
    "Verif.Props.Par.C122_comparison_3d",
    "Verif.Props.Par.C122_comparison_periodic_2d",
    "Verif.Props.Par.C122_comparison_periodic_3d"
   ],
   "note": ""
  },
  {
   "property": "C123",
   "status": "partial",
   "theorems": [
    "Verif.Props.Par.C123_transport_darcy_2d",
    "Verif.Props.Par.C123_transport_darcy_serial_2d",
    "Verif.Props.Par.C123_transport_darcy_3d",
    "Verif.Props.Par.C123_transport_darcy_serial_3d",
    "Verif.Props.Par.C123_shallow_streamer_2d_partial",
    "Verif.Props.Par.C123_shallow_streamer_serial_2d_partial",
    "Verif.Props.Par.C123_streamer_3d_partial",
    "Verif.Props.Par.C123_streamer_serial_3d_partial"
   ],
   "note": "the streamer part skips cells whose mean field vanishes, as the code does (see C80_zero_field_counterexample); transport, Darcy and shallow water are proved in full; no periodic sides"
  },
  {
   "property": "C124",
   "status": "proved",
   "theorems": [
    "Verif.Props.Par.C124_order1_2d",
    "Verif.Props.Par.C124_order1_parallel_2d",
    "Verif.Props.Par.C124_order1_3d",
    "Verif.Props.Par.C124_order1_parallel_3d",
    "Verif.Props.Par.C124_run_2d",
    "Verif.Props.Par.C124_run_3d",
    "Verif.Props.Par.C124_run_parallel_2d_partial",
    "Verif.Props.Par.C124_run_parallel_3d_partial"
   ],
   "note": ""
  },
  {
   "property": "C125",
   "status": "proved",
   "theorems": [
    "Verif.Props.Par.C125_files_2d",
    "Verif.Props.Par.C125_files_3d",
    "Verif.Props.Par.C125_files_serial_2d",
    "Verif.Props.Par.C125_files_serial_3d",
    "Verif.Props.Par.C125_index"
   ],
   "note": ""
  },
  {
   "property": "C126",
   "status": "partial",
   "theorems": [
    "Verif.Props.Par.C126_last_missed_2d",
    "Verif.Props.Par.C126_last_missed_3d",
    "Verif.Props.Par.C126_last_saved_iff_partial",
    "Verif.Props.Par.C126_final_save_partial"
   ],
   "note": "False of the transport and Darcy drivers (C126_last_missed_2d/3d: for every steady setup on every valid mesh there is a final time for which the final values are not saved). Proved: exactly when they are saved (C126_last_saved_iff_partial), and that the drivers with a save after the loop always save them (C126_final_save_partial)."
  },
  {
   "property": "C127",
   "status": "partial",
   "theorems": [
    "Verif.Props.Par.C127_shallow_partial",
    "Verif.Props.Par.C127_shallow_serial_partial",
    "Verif.Props.Par.C127_wet_start",
    "Verif.Props.Par.C127_streamer_aborts"
   ],
   "note": "False of the code: C127_shallow_partial gives the exact set of final times for which the shallow-water driver completes (not dt < tfinal < 50 dt), for a positive first step, which wet starts have (C127_wet_start); C127_streamer_aborts is the corresponding failure of the second streamer driver."
  },
  {
   "property": "C128",
   "status": "partial",
   "theorems": [
    "Verif.Props.Par.C128_solves_2d_partial",
    "Verif.Props.Par.C128_exact_2d_partial",
    "Verif.Props.Par.C128_solves_3d_partial",
    "Verif.Props.Par.C128_exact_3d_partial",
    "Verif.Props.Par.C128_dirichlet_2d_partial",
    "Verif.Props.Par.C128_dirichlet_3d_partial",
    "Verif.Props.Par.C128_not_general"
   ],
   "note": "False in general: C128_not_general (one right triangle, potential x on all sides). Proved: the potential solves the assembled system (C128_solves_2d/3d_partial) and is returned with its field if the system is regular (C128_exact_*), under AffineData, i.e. with the condition on the foot of the perpendicular on Dirichlet faces; regularity and AffineData are proved from conditions on the mesh alone when all sides are Dirichlet, all nodes lie on the boundary and every cell has an outer face (C128_dirichlet_*). No periodic sides; 3D needs an exact square root."
  },
  {
   "property": "C129",
   "status": "proved",
   "theorems": [
    "Verif.Props.Par.C129_order1_2d",
    "Verif.Props.Par.C129_order1_3d",
    "Verif.Props.Par.C129_order1_parallel_2d",
    "Verif.Props.Par.C129_order1_parallel_3d",
    "Verif.Props.Par.C129_run_2d",
    "Verif.Props.Par.C129_run_3d",
    "Verif.Props.Par.C129_run_parallel_2d_partial",
    "Verif.Props.Par.C129_run_parallel_3d_partial"
   ],
   "note": ""
  },
  {
   "property": "C130",
   "status": "partial",
   "theorems": [
    "Verif.Props.Par.C130_run_partial",
    "Verif.Props.Par.C130_cap",
    "Verif.Props.Par.C130_periodic_partial",
    "Verif.Props.Par.C130_not_general_2d"
   ],
   "note": "False in general because time_step caps the step at 10^6 (C130_not_general_2d on every valid mesh, C130_cap). Proved for any tables and any number of processes when the steps stay below the cap in both units."
  },
  {
   "property": "C131",
   "status": "partial",
   "theorems": [
    "Verif.Props.Par.C131_zero_periodic_2d_partial",
    "Verif.Props.Par.C131_zero_periodic_diffusion_2d_partial",
    "Verif.Props.Par.C131_zero_periodic_3d_partial",
    "Verif.Props.Par.C131_zero_serial_2d",
    "Verif.Props.Par.C131_zero_serial_3d",
    "Verif.Props.Par.C131_zero_2d_partial",
    "Verif.Props.Par.C131_zero_3d_partial"
   ],
   "note": "Proved in full on one process (C131_zero_serial_2d/3d) for uniform velocities and Neumann or Dirichlet sides; on any number of processes for meshes whose cells around a node are connected through faces and boundary conditions that agree at shared corners (as C90); on periodic domains, one process, first order, by superposition with the constant run (C131_zero_periodic_*; with diffusion 2D only). The instants are equal; the step does not depend on the values."
  },
  {
   "property": "C132",
   "status": "partial",
   "theorems": [
    "Verif.Props.Par.C132_gradient_across_2d_partial"
   ],
   "note": "One process, 2D, the sides in and out. On the sides upper and bottom the code moves the cell to the wrong side (C68_shift_y_2d_wrong), so the claim is false there. The width condition (Mesh.Wide) is needed: the code sets the shift of a cell only when it shares a node with another cell of the side."
  },
  {
   "property": "C133",
   "status": "partial",
   "theorems": [
    "Verif.Props.Par.C133_partner_nodes_2d_partial",
    "Verif.Props.Par.C133_partner_gradients_2d_partial"
   ],
   "note": "One process, 2D, the sides in and out, away from the walls. At a node that is also on a wall the code uses the ghost cells of its own side only, so the facing nodes may differ there. Only needs the pairs of faces: the conservation of a whole diffusive run also needs the faces next to the walls."
  }
 ]
}