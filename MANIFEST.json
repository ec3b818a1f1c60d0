{
 "claims": [
  {
   "property": "C01",
   "status": "proved",
   "theorems": [
    "DiscSolver.rhs_solenoid",
    "DiscSolver.pde_div_free"
   ],
   "note": ""
  },
  {
   "property": "C02",
   "status": "proved",
   "theorems": [
    "DiscSolver.rhs_continuity",
    "DiscSolver.pde_mass"
   ],
   "note": ""
  },
  {
   "property": "C03",
   "status": "proved",
   "theorems": [
    "DiscSolver.rhs_radial_momentum",
    "DiscSolver.pde_momentum_r"
   ],
   "note": ""
  },
  {
   "property": "C04",
   "status": "proved",
   "theorems": [
    "DiscSolver.rhs_azimuthal_momentum",
    "DiscSolver.pde_momentum_φ"
   ],
   "note": ""
  },
  {
   "property": "C05",
   "status": "proved",
   "theorems": [
    "DiscSolver.rhs_polar_momentum",
    "DiscSolver.pde_momentum_θ"
   ],
   "note": ""
  },
  {
   "property": "C06",
   "status": "proved",
   "theorems": [
    "DiscSolver.rhs_E_φ_zero",
    "DiscSolver.rhs_polar_induction",
    "DiscSolver.pde_toroidal_field_zero"
   ],
   "note": ""
  },
  {
   "property": "C07",
   "status": "partial",
   "theorems": [
    "DiscSolver.E_r_recovery_error",
    "DiscSolver.E_r_recovered_partial",
    "DiscSolver.E_r_recovered_ohmic_partial",
    "DiscSolver.E_r_not_recovered"
   ],
   "note": "False of the code: exact error, two cases where it holds, counterexample."
  },
  {
   "property": "C08",
   "status": "partial",
   "theorems": [
    "DiscSolver.induction_error",
    "DiscSolver.induction_iff",
    "DiscSolver.induction_partial",
    "DiscSolver.induction_fails"
   ],
   "note": "False of the code: exact error, exact condition, counterexample."
  },
  {
   "property": "C09",
   "status": "proved",
   "theorems": [
    "DiscSolver.pde_E_r_curl_free"
   ],
   "note": ""
  },
  {
   "property": "C10",
   "status": "proved",
   "theorems": [
    "DiscSolver.currents_are_curl",
    "DiscSolver.electric_is_ohm"
   ],
   "note": ""
  },
  {
   "property": "C11",
   "status": "proved",
   "theorems": [
    "DiscSolver.direction_unit",
    "DiscSolver.B_unit_derivs_correct",
    "DiscSolver.B_unit_derivs_orthogonal"
   ],
   "note": ""
  },
  {
   "property": "C12",
   "status": "proved",
   "theorems": [
    "DiscSolver.rhs_diffusivity_scaling",
    "DiscSolver.rhs_diffusivity_const"
   ],
   "note": ""
  },
  {
   "property": "C13",
   "status": "proved",
   "theorems": [
    "DiscSolver.rhs_code",
    "DiscSolver.rhs_call_eq",
    "DiscSolver.rhs_storage_independent",
    "DiscSolver.problems_recorded",
    "DiscSolver.witCalls_problems"
   ],
   "note": ""
  },
  {
   "property": "C14",
   "status": "proved",
   "theorems": [
    "DiscSolver.internal_data_history",
    "DiscSolver.nothing_stored",
    "DiscSolver.recorded_aligned",
    "DiscSolver.join_aligned",
    "DiscSolver.flip_aligned",
    "DiscSolver.jacobian_aligned",
    "DiscSolver.witCalls_recorded"
   ],
   "note": ""
  },
  {
   "property": "C15",
   "status": "proved",
   "theorems": [
    "DiscSolver.midplane_consistent"
   ],
   "note": ""
  },
  {
   "property": "C16",
   "status": "proved",
   "theorems": [
    "DiscSolver.midplaneRotation_iff",
    "DiscSolver.define_conditions_fails_iff",
    "DiscSolver.define_conditions_outcomes",
    "DiscSolver.define_conditions_shape",
    "DiscSolver.define_conditions_fastest"
   ],
   "note": ""
  },
  {
   "property": "C17",
   "status": "proved",
   "theorems": [
    "DiscSolver.taylor_first_order_unique"
   ],
   "note": ""
  },
  {
   "property": "C18",
   "status": "partial",
   "theorems": [
    "DiscSolver.taylor_solenoid_partial",
    "DiscSolver.taylor_radial_partial",
    "DiscSolver.taylor_diffusivity_partial",
    "DiscSolver.taylor_E_r_partial",
    "DiscSolver.taylor_polar_error",
    "DiscSolver.taylor_polar_iff",
    "DiscSolver.taylor_azimuthal_error",
    "DiscSolver.taylor_azimuthal_iff",
    "DiscSolver.taylor_second_order_wrong"
   ],
   "note": "False of the code: solenoidal, radial, diffusivity and E_r parts hold; polar and azimuthal momentum fail with the exact leading error proved."
  },
  {
   "property": "C19",
   "status": "partial",
   "theorems": [
    "DiscSolver.taylor_continuity_error",
    "DiscSolver.taylor_continuity_iff",
    "DiscSolver.taylor_third_order_wrong"
   ],
   "note": "False of the code: the v_θ slot receives the v_φ coefficient."
  },
  {
   "property": "C20",
   "status": "partial",
   "theorems": [
    "DiscSolver.taylor_requested_partial",
    "DiscSolver.taylor_numeric_partial",
    "DiscSolver.taylor_start_jump",
    "DiscSolver.taylor_recorded_late",
    "DiscSolver.taylor_start_mismatch"
   ],
   "note": "False of the code: the inserted starting row is discarded, so the first recorded point of a Taylor start is not the initial condition."
  },
  {
   "property": "C21",
   "status": "partial",
   "theorems": [
    "DiscSolver.jump_lands",
    "DiscSolver.jump_direction_partial",
    "DiscSolver.jump_keeps_behind"
   ],
   "note": "The landing angle is scaled twice: jumps land past the sonic point only when theta_scale = 1 or under a stated bound."
  },
  {
   "property": "C22",
   "status": "partial",
   "theorems": [
    "DiscSolver.conflict_iff",
    "DiscSolver.conflict_rejected",
    "DiscSolver.conflict_rejected_first_partial",
    "DiscSolver.conflict_rejected_late",
    "DiscSolver.solution_ok",
    "DiscSolver.one_crossing_mode"
   ],
   "note": "Every conflict is rejected and a success uses one mode; rejection before any integration is false for the case conflict_rejected_late exhibits."
  },
  {
   "property": "C23",
   "status": "proved",
   "theorems": [
    "DiscSolver.wave_dispersion",
    "DiscSolver.wave_order"
   ],
   "note": ""
  },
  {
   "property": "C24",
   "status": "proved",
   "theorems": [
    "DiscSolver.fast_implies_all",
    "DiscSolver.critical_point_order"
   ],
   "note": ""
  },
  {
   "property": "C25",
   "status": "proved",
   "theorems": [
    "DiscSolver.first_closest_some",
    "DiscSolver.first_closest_none",
    "DiscSolver.first_closest_raises"
   ],
   "note": ""
  },
  {
   "property": "C26",
   "status": "partial",
   "theorems": [
    "DiscSolver.closest_sorted_partial",
    "DiscSolver.closest_sorted_iff",
    "DiscSolver.closest_sorted_not_closest"
   ],
   "note": "False of the code: the first sample not below the target is returned, IndexError beyond the end; exact condition proved."
  },
  {
   "property": "C27",
   "status": "proved",
   "theorems": [
    "DiscSolver.deduplicate_spec",
    "DiscSolver.deduplicate_fails"
   ],
   "note": ""
  },
  {
   "property": "C28",
   "status": "partial",
   "theorems": [
    "DiscSolver.rotation_isometry",
    "DiscSolver.rotation_inverse",
    "DiscSolver.rotation_basis",
    "DiscSolver.convert_spec",
    "DiscSolver.convert_isometry",
    "DiscSolver.cylinder_radius_iff",
    "DiscSolver.cylindrical_partial",
    "DiscSolver.cylindrical_wrong_radius"
   ],
   "note": "Rotation proved; the cylindrical rescaling is false of the code away from the midplane unless c^2 = 1, exact condition proved."
  },
  {
   "property": "C29",
   "status": "proved",
   "theorems": [
    "DiscSolver.scale_spec",
    "DiscSolver.scale_compose",
    "DiscSolver.scale_one",
    "DiscSolver.scale_invariants",
    "DiscSolver.scale_rows_spec",
    "DiscSolver.normalisation_consistent"
   ],
   "note": ""
  },
  {
   "property": "C30",
   "status": "proved",
   "theorems": [
    "DiscSolver.shock_conserves",
    "DiscSolver.shock_unique",
    "DiscSolver.shock_unchanged",
    "DiscSolver.shock_angles_all",
    "DiscSolver.shock_slows",
    "DiscSolver.shock_involutive"
   ],
   "note": ""
  },
  {
   "property": "C31",
   "status": "proved",
   "theorems": [
    "DiscSolver.nanargmax_spec",
    "DiscSolver.shock_candidates",
    "DiscSolver.shock_candidates_fails"
   ],
   "note": ""
  },
  {
   "property": "C32",
   "status": "proved",
   "theorems": [
    "DiscSolver.angle_scale_inverse",
    "DiscSolver.angle_scale_order"
   ],
   "note": ""
  },
  {
   "property": "C33",
   "status": "proved",
   "theorems": [
    "DiscSolver.solutions_stored_in_order",
    "DiscSolver.add_solution_fresh",
    "DiscSolver.solutions_never_replaced",
    "DiscSolver.get_last_largest",
    "DiscSolver.get_last_most_recent"
   ],
   "note": ""
  },
  {
   "property": "C34",
   "status": "proved",
   "theorems": [
    "DiscSolver.final_write_once",
    "DiscSolver.finalise_unset",
    "DiscSolver.finalise_set",
    "DiscSolver.finalise_idempotent",
    "DiscSolver.finalise_after_store",
    "DiscSolver.finalise_empty",
    "DiscSolver.shock_run_fresh"
   ],
   "note": ""
  },
  {
   "property": "C35",
   "status": "partial",
   "theorems": [
    "DiscSolver.get_final",
    "DiscSolver.get_named",
    "DiscSolver.get_latest_final",
    "DiscSolver.get_latest_unset",
    "DiscSolver.get_final_in_progress"
   ],
   "note": "Holds for loaded runs; false of a run in progress, where the placeholder object is returned instead of None."
  },
  {
   "property": "C36",
   "status": "partial",
   "theorems": [
    "DiscSolver.problems_lookup",
    "DiscSolver.problems_append",
    "DiscSolver.problems_history",
    "DiscSolver.problems_key_text",
    "DiscSolver.problems_update",
    "DiscSolver.problems_join",
    "DiscSolver.problems_delete_partial",
    "DiscSolver.problems_delete_number_fails",
    "DiscSolver.problems_contains_everything"
   ],
   "note": "Deletion by number is false of the code: __delitem__ does not convert its key."
  },
  {
   "property": "C37",
   "status": "proved",
   "theorems": [
    "DiscSolver.validate_overrides_ok",
    "DiscSolver.validate_overrides_unknown",
    "DiscSolver.add_overrides_ok",
    "DiscSolver.add_overrides_unknown",
    "DiscSolver.add_overrides_none"
   ],
   "note": ""
  },
  {
   "property": "C38",
   "status": "proved",
   "theorems": [
    "DiscSolver.resolve_inputs",
    "DiscSolver.resolve_inputs_succeeds"
   ],
   "note": ""
  },
  {
   "property": "C39",
   "status": "partial",
   "theorems": [
    "DiscSolver.input_round_trip_iff",
    "DiscSolver.input_round_trip_partial",
    "DiscSolver.to_config_input_fails",
    "DiscSolver.shock_input_not_convertible"
   ],
   "note": "False of the code for an empty MCMC selection, some slices, and shock inputs; exact condition proved."
  },
  {
   "property": "C40",
   "status": "partial",
   "theorems": [
    "DiscSolver.slice_text_iff",
    "DiscSolver.slice_text_partial",
    "DiscSolver.slice_text_wrong"
   ],
   "note": "False of the code for slices without a stop or with a step and no start; exact condition proved."
  },
  {
   "property": "C41",
   "status": "partial",
   "theorems": [
    "DiscSolver.mcmc_text_round_trip",
    "DiscSolver.mcmc_config_iff",
    "DiscSolver.mcmc_read_spec",
    "DiscSolver.mcmc_unknown_accepted"
   ],
   "note": "Round trip proved; unknown names are accepted by the code, exact reading proved."
  },
  {
   "property": "C42",
   "status": "partial",
   "theorems": [
    "DiscSolver.conf_file_reads_back",
    "DiscSolver.conf_file_round_trip_iff",
    "DiscSolver.conf_file_reread",
    "DiscSolver.conf_file_round_trip",
    "DiscSolver.conf_file_round_trip_partial",
    "DiscSolver.conf_file_same_input",
    "DiscSolver.conf_file_label_loses",
    "DiscSolver.conf_file_mcmc_none",
    "DiscSolver.conf_file_percent",
    "DiscSolver.conf_file_percent_fails",
    "DiscSolver.dump_config_round_trip",
    "DiscSolver.no_conf_file"
   ],
   "note": "Proved on the text of the file, for values on any number of lines. What any configuration without % is read back as is given exactly (conf_file_reads_back), it is the same exactly for texts the format can hold (conf_file_round_trip_iff), and whatever was read from a file is kept (conf_file_reread). False of the code for mcmc_vars None, for % in a value, and for a label with blanks at the ends of its lines or a later line starting like a comment."
  },
  {
   "property": "C43",
   "status": "proved",
   "theorems": [
    "DiscSolver.FileFormat.file_round_trip",
    "DiscSolver.FileFormat.collection_round_trip",
    "DiscSolver.FileFormat.Same.arrays",
    "DiscSolver.FileFormat.Same.field",
    "DiscSolver.FileFormat.solution_values_kept",
    "DiscSolver.FileFormat.unknown_not_saved",
    "DiscSolver.FileFormat.unfinished_run_unreadable",
    "DiscSolver.FileFormat.nan_diffusivity_unreadable",
    "DiscSolver.FileFormat.python_number_unreadable",
    "DiscSolver.FileFormat.derivatives_not_restored",
    "DiscSolver.FileFormat.trailing_zero_lost"
   ],
   "note": "Round trip through the current dumpers, the file tree and the loaders, for all containers of the kinds the solver builds (Fits in the specification). The other theorems give the values outside that which do not survive. How h5preserve calls dumpers and loaders is an assumption."
  },
  {
   "property": "C44",
   "status": "partial",
   "theorems": [
    "DiscSolver.FileFormat.old_file_loads_partial",
    "DiscSolver.FileFormat.old_run_loads",
    "DiscSolver.FileFormat.old_initial_conditions_load",
    "DiscSolver.FileFormat.old_inputs_unreadable",
    "DiscSolver.FileFormat.old_internal_data_unreadable",
    "DiscSolver.FileFormat.unreadable_member",
    "DiscSolver.FileFormat.old_inputs_not_saved_again",
    "DiscSolver.FileFormat.cache_keeps_migration",
    "DiscSolver.FileFormat.no_cache_loses_migration"
   ],
   "note": "Proved for inputs of versions 4 and 6 to 14, solutions 1 to 4, runs 1 to 6 and initial conditions 1 and 2. False of the code, and proved so, for inputs of versions 1, 2, 3 and 5 and internal data of versions 1 and 2: they never load. With NO_CACHE the migration of stored solutions is lost."
  },
  {
   "property": "C45",
   "status": "proved",
   "theorems": [
    "DiscSolver.Stepper.search_bounded",
    "DiscSolver.Stepper.watched_same",
    "DiscSolver.Stepper.search_first_success",
    "DiscSolver.Stepper.search_exhausted",
    "DiscSolver.Stepper.search_error",
    "DiscSolver.Stepper.search_stop",
    "DiscSolver.Stepper.search_raises"
   ],
   "note": ""
  },
  {
   "property": "C46",
   "status": "proved",
   "theorems": [
    "DiscSolver.Stepper.solver_steps",
    "DiscSolver.Stepper.halvings_zero_iff",
    "DiscSolver.Stepper.halvings_step",
    "DiscSolver.Stepper.next_γ_exact",
    "DiscSolver.Stepper.next_γ_moves",
    "DiscSolver.Stepper.zero_γ_stuck"
   ],
   "note": "Holds for every search, in exact arithmetic; for an initial gamma of zero the step is zero and the search stops or never ends, which is proved."
  },
  {
   "property": "C47",
   "status": "partial",
   "theorems": [
    "DiscSolver.Stepper.recorded_input_on_file_partial",
    "DiscSolver.Stepper.recorded_input_final",
    "DiscSolver.Stepper.recorded_input_shifted",
    "DiscSolver.Stepper.recorded_input_wrong"
   ],
   "note": "False of the code for runs kept in memory: every recorded input but the last is overwritten with the next one; holds for runs in a file and for the final solution."
  },
  {
   "property": "C48",
   "status": "proved",
   "theorems": [
    "DiscSolver.Stepper.solver_stores_attempts",
    "DiscSolver.Stepper.solver_final",
    "DiscSolver.Stepper.solver_best_is_final",
    "DiscSolver.Stepper.solver_outcome"
   ],
   "note": ""
  },
  {
   "property": "C49",
   "status": "proved",
   "theorems": [
    "DiscSolver.Stepper.validate_iff",
    "DiscSolver.Stepper.best_iff",
    "DiscSolver.Stepper.valid_sorted",
    "DiscSolver.Stepper.validate_accepts_nan",
    "DiscSolver.Stepper.nan_not_best"
   ],
   "note": "Not-a-number samples pass validation."
  },
  {
   "property": "C50",
   "status": "partial",
   "theorems": [
    "DiscSolver.Stepper.splitter_velocity_partial",
    "DiscSolver.Stepper.splitter_negative_velocity",
    "DiscSolver.Stepper.splitter_sixth_row",
    "DiscSolver.Stepper.splitter_ignores_derivatives",
    "DiscSolver.Stepper.splitter_not_v_θ_deriv",
    "DiscSolver.Stepper.splitter_short",
    "DiscSolver.Stepper.splitter_unknown"
   ],
   "note": "False of the code: it reads the derivatives of all variables at the sixth evaluation instead of the derivatives of v_theta."
  },
  {
   "property": "C51",
   "status": "partial",
   "theorems": [
    "DiscSolver.FastCrosser.phases_forward",
    "DiscSolver.FastCrosser.climbs",
    "DiscSolver.FastCrosser.upward_sweep",
    "DiscSolver.FastCrosser.downward_sweep",
    "DiscSolver.FastCrosser.stuck_stops",
    "DiscSolver.FastCrosser.golden_section_start",
    "DiscSolver.FastCrosser.golden_section_leaves_bracket",
    "DiscSolver.FastCrosser.crosser_outcome",
    "DiscSolver.FastCrosser.crosser_attempt",
    "DiscSolver.FastCrosser.crosser_attempt_failed",
    "DiscSolver.FastCrosser.crosser_attempt_raises",
    "DiscSolver.FastCrosser.crosser_keeps_final",
    "DiscSolver.FastCrosser.crosser_final_not_best"
   ],
   "note": "Phases and sweeps proved; false of the code for the bracketed phase, whose attempts all lie outside the bracket, and for the final solution, which is the last stored and not the best."
  },
  {
   "property": "C52",
   "status": "proved",
   "theorems": [
    "DiscSolver.Mcmc.sampled_variables",
    "DiscSolver.Mcmc.sys_vars_round_trip",
    "DiscSolver.Mcmc.sys_vars_values",
    "DiscSolver.Mcmc.valid_iff",
    "DiscSolver.Mcmc.invalid_not_solved",
    "DiscSolver.Mcmc.best_after_evaluations",
    "DiscSolver.Mcmc.mcmc_final",
    "DiscSolver.Mcmc.logprob_neg",
    "DiscSolver.Mcmc.logprob_faster",
    "DiscSolver.Mcmc.outflow_value",
    "DiscSolver.Mcmc.logprob_value",
    "DiscSolver.Mcmc.nan_valid"
   ],
   "note": "Invalid means not positive; NaN counts as valid, which is proved."
  },
  {
   "property": "C53",
   "status": "partial",
   "theorems": [
    "DiscSolver.TaylorSpace.scan_partial",
    "DiscSolver.TaylorSpace.scan_mismatch",
    "DiscSolver.TaylorSpace.scan_swaps",
    "DiscSolver.TaylorSpace.scan_wrong",
    "DiscSolver.TaylorSpace.scan_rows"
   ],
   "note": "False of the code: eta_A and eta_H are swapped; everything else proved."
  },
  {
   "property": "C54",
   "status": "proved",
   "theorems": [
    "DiscSolver.Runners.solve_never_overwrites",
    "DiscSolver.Runners.solve_one_file",
    "DiscSolver.Runners.solve_existing_output",
    "DiscSolver.Runners.solve_ok",
    "DiscSolver.Runners.solve_known_method",
    "DiscSolver.Runners.solve_unknown_method",
    "DiscSolver.Runners.resolve_never_overwrites",
    "DiscSolver.Runners.resolve_ok",
    "DiscSolver.Runners.single_stores_one",
    "DiscSolver.Runners.hdf5_exclusive",
    "DiscSolver.Runners.hdf5_never_overwrites",
    "DiscSolver.Runners.hdf5_distinct_paths",
    "DiscSolver.Runners.hdf5_fixed_name",
    "DiscSolver.Runners.hdf5_job_of_row"
   ],
   "note": "An unknown method leaves a new file behind; one name for all rows of hdf5runner serves only one of them."
  },
  {
   "property": "C55",
   "status": "partial",
   "theorems": [
    "DiscSolver.Csv.csv_file_inputs",
    "DiscSolver.Csv.csv_inputs",
    "DiscSolver.Csv.csv_inputs_unnamed",
    "DiscSolver.Csv.mem_columns",
    "DiscSolver.Csv.csv_comments",
    "DiscSolver.Csv.record_of_fields",
    "DiscSolver.Csv.record_written",
    "DiscSolver.Csv.record_empty",
    "DiscSolver.Csv.header_always",
    "DiscSolver.Csv.headerless_loses_row",
    "DiscSolver.Csv.multiline_value_loses_line",
    "DiscSolver.Runners.ofDict_ok_iff",
    "DiscSolver.Runners.row_needs",
    "DiscSolver.Runners.row_assumes"
   ],
   "note": "True for files with a header and values on one line; false of the code for headerless files and for quoted values with a line starting with #."
  },
  {
   "property": "C56",
   "status": "partial",
   "theorems": [
    "DiscSolver.Runners.csvrunner_rows",
    "DiscSolver.Runners.csvrunner_progress",
    "DiscSolver.Runners.csvrunner_complete_partial",
    "DiscSolver.Runners.csvrunner_raise_stops",
    "DiscSolver.Runners.csv_find_some",
    "DiscSolver.Runners.csv_find_none",
    "DiscSolver.Runners.csv_find_raises"
   ],
   "note": "False of the code when a worker raises anything but SolverError, or a row cannot be read: all later rows are lost. Everything else proved for every schedule."
  },
  {
   "property": "C57",
   "status": "partial",
   "theorems": [
    "DiscSolver.SonicRoot.conditions_kept_partial",
    "DiscSolver.SonicRoot.evaluation_overwrites",
    "DiscSolver.SonicRoot.search_overwrites",
    "DiscSolver.SonicRoot.evaluation_changes",
    "DiscSolver.SonicRoot.evaluation_other_arrays",
    "DiscSolver.SonicRoot.define_conditions_start",
    "DiscSolver.SonicRoot.equations_unaffected"
   ],
   "note": "False of the code: InitialConditions(**vars(...)) shares the array, so every evaluation overwrites eight of the eleven initial values with the guess (evaluation_overwrites, search_overwrites; evaluation_changes shows this for every accepted input). Proved part: diffusivities and all other arrays are kept, and the derivatives of the sonic part do not depend on the overwritten entries."
  },
  {
   "property": "C58",
   "status": "partial",
   "theorems": [
    "DiscSolver.SonicRoot.joined_rows",
    "DiscSolver.SonicRoot.joined_rest",
    "DiscSolver.SonicRoot.joined_ordered",
    "DiscSolver.SonicRoot.joined_internal_rows",
    "DiscSolver.SonicRoot.joined_internal_none",
    "DiscSolver.SonicRoot.stored_iff_failed"
   ],
   "note": "The joined solution has the stated shape for all parts, but line 235 reads StatusFlag.SUCESS, so it is stored exactly when the sonic integration failed; otherwise AttributeError (stored_iff_failed)."
  },
  {
   "property": "C59",
   "status": "proved",
   "theorems": [
    "DiscSolver.Hydro.hydro_outcomes",
    "DiscSolver.Hydro.hydro_statics",
    "DiscSolver.Hydro.hydro_frozen_velocities",
    "DiscSolver.Hydro.hydro_balanced_accepted",
    "DiscSolver.ModHydro.mod_hydro_outcomes",
    "DiscSolver.ModHydro.mod_hydro_statics",
    "DiscSolver.ModHydro.mod_hydro_E_r_writes"
   ],
   "note": "Both right-hand sides, both formulations of the modified one, for every static state."
  },
  {
   "property": "C60",
   "status": "partial",
   "theorems": [
    "DiscSolver.ValidatePlot.residuals_are_spec",
    "DiscSolver.ValidatePlot.checks_zero",
    "DiscSolver.ValidatePlot.plot_reports",
    "DiscSolver.ValidatePlot.validate_plot_zero_partial",
    "DiscSolver.ValidatePlot.polar_induction_error",
    "DiscSolver.ValidatePlot.polar_induction_not_zero",
    "DiscSolver.ValidatePlot.degrees_spec",
    "DiscSolver.ValidatePlot.E_func_ohm",
    "DiscSolver.ValidatePlot.E_values_ohm",
    "DiscSolver.ValidatePlot.E_dash_resistive",
    "DiscSolver.ValidatePlot.je_plot_E_φ_zero",
    "DiscSolver.ValidatePlot.hydro_check_azimuthal",
    "DiscSolver.ValidatePlot.hydro_check_radial",
    "DiscSolver.ValidatePlot.hydro_check_panels",
    "DiscSolver.ValidatePlot.hydro_check_refuses",
    "DiscSolver.ValidatePlot.checks_exact",
    "DiscSolver.ValidatePlot.recorded_derivs",
    "DiscSolver.ValidatePlot.demanded_exists",
    "DiscSolver.ValidatePlot.interpolated_checks",
    "DiscSolver.ValidatePlot.taylor_checks",
    "DiscSolver.ValidatePlot.validate_plot_exact",
    "DiscSolver.ValidatePlot.taylor_rows_not_zero"
   ],
   "note": "Six of seven residuals are zero on all rows recorded from the equations; \"polar induction\" is false of the code (sign of Hall and ambipolar terms), with its exact error proved. For rows recorded with the Taylor series or a supplied v_theta derivative, which do not come from the equations, the exact plotted numbers are proved."
  },
  {
   "property": "C61",
   "status": "partial",
   "theorems": [
    "DiscSolver.Stats.visits_all",
    "DiscSolver.Stats.unreadable_file_skipped",
    "DiscSolver.Stats.unreadable_solution",
    "DiscSolver.Stats.unreadable_solution_hides",
    "DiscSolver.Stats.files_order",
    "DiscSolver.Stats.writeLoop_value_errors",
    "DiscSolver.Stats.writeLoop_other_error",
    "DiscSolver.Stats.write_stats_header",
    "DiscSolver.Stats.columns_exact",
    "DiscSolver.Stats.row_complete",
    "DiscSolver.Stats.row_raises",
    "DiscSolver.Stats.input_row_exact",
    "DiscSolver.Stats.stats_main_all"
   ],
   "note": "True for readable files and for solutions whose analysis raises ValueError. Two parts are false of the code and their negations proved: an unreadable stored solution hides the rest of its file (unreadable_solution_hides) and any other exception in the analysis ends the command (writeLoop_other_error)."
  },
  {
   "property": "C62",
   "status": "proved",
   "theorems": [
    "DiscSolver.Plots.enough_colors",
    "DiscSolver.Plots.number_of_colors",
    "DiscSolver.Plots.compare_shows_all",
    "DiscSolver.Plots.compare_style",
    "DiscSolver.Plots.compare_error",
    "DiscSolver.Plots.conserve_shows_all",
    "DiscSolver.Plots.diverge_shows_all",
    "DiscSolver.Plots.diverge_colors"
   ],
   "note": "The sizes of the library palettes are assumptions of the model."
  },
  {
   "property": "C63",
   "status": "partial",
   "theorems": [
    "DiscSolver.Trajectory.compute_values_direction",
    "DiscSolver.Trajectory.compute_values_unit",
    "DiscSolver.Trajectory.compute_values_edge",
    "DiscSolver.Trajectory.compute_values_only_index",
    "DiscSolver.Trajectory.follow_bounded",
    "DiscSolver.Trajectory.follow_steps_partial",
    "DiscSolver.Trajectory.step_distance",
    "DiscSolver.Trajectory.follow_start_outside",
    "DiscSolver.Trajectory.follow_stops_at_edge",
    "DiscSolver.Trajectory.follow_repeats",
    "DiscSolver.Trajectory.traj_main_fails",
    "DiscSolver.Trajectory.traj_keywords",
    "DiscSolver.Trajectory.plot_keywords",
    "DiscSolver.Trajectory.plot_main_runs"
   ],
   "note": "\"Every point one step from the previous\" is false right after a shortened step, when the same point is yielded twice (follow_repeats); a start outside the solution raises TypeError instead of giving no points; ds-traj always raises TypeError."
  },
  {
   "property": "C64",
   "status": "partial",
   "theorems": [
    "DiscSolver.Streams.open_or_stream_partial",
    "DiscSolver.Streams.open_or_stream_body",
    "DiscSolver.Streams.open_or_stream_leaks",
    "DiscSolver.Streams.open_or_stream_not_closed",
    "DiscSolver.Streams.pool_closed",
    "DiscSolver.Streams.pool_error_lost"
   ],
   "note": "Closing after a normal end is proved; after an exception the file stays open (open_or_stream_leaks). A failing pool set-up loses its error to UnboundLocalError (pool_error_lost)."
  },
  {
   "property": "C65",
   "status": "partial",
   "theorems": [
    "DiscSolver.Logging.stderr_exact",
    "DiscSolver.Logging.file_exact_partial",
    "DiscSolver.Logging.verbose_file_empty",
    "DiscSolver.Logging.quiet_file"
   ],
   "note": "Terminal output is exact for all options and records. The log file is complete only without --verbose and --quiet; with --verbose it stays empty and with --quiet it misses the errors (both proved)."
  },
  {
   "property": "C66",
   "status": "partial",
   "theorems": [
    "DiscSolver.scale_slope_partial",
    "DiscSolver.scale_changes_solution"
   ],
   "note": "False of the code: derivatives are not multiplied by theta_scale; the exact slope is proved."
  },
  {
   "property": "C67",
   "status": "partial",
   "theorems": [
    "DiscSolver.flag_is_first_leg_partial",
    "DiscSolver.flag_hides_failure"
   ],
   "note": "False of the code: only the first leg is reported."
  },
  {
   "property": "C68",
   "status": "proved",
   "theorems": [
    "DiscSolver.solution_aligned",
    "DiscSolver.solution_ok"
   ],
   "note": ""
  },
  {
   "property": "C69",
   "status": "partial",
   "theorems": [
    "DiscSolver.midplane_alfven_partial",
    "DiscSolver.midplane_alfven_iff"
   ],
   "note": "False of the code: the factor a_0 is missing; exact condition proved."
  },
  {
   "property": "C70",
   "status": "partial",
   "theorems": [
    "DiscSolver.interp_for_value_partial",
    "DiscSolver.interp_for_value_outside",
    "DiscSolver.sonic_angle_crossing"
   ],
   "note": "False of the code when the sample after the crossing falls back; true when it does not."
  },
  {
   "property": "C71",
   "status": "partial",
   "theorems": [
    "DiscSolver.shock_E_jump",
    "DiscSolver.shock_E_iff",
    "DiscSolver.shock_E_partial",
    "DiscSolver.shock_E_discontinuous"
   ],
   "note": "False of the code in general; exact jump and condition proved."
  },
  {
   "property": "C72",
   "status": "partial",
   "theorems": [
    "DiscSolver.unreadable_int_accepted",
    "DiscSolver.unreadable_float_rejected_partial"
   ],
   "note": "False of the code for integers; an unreadable integer becomes None."
  },
  {
   "property": "C73",
   "status": "proved",
   "theorems": [
    "DiscSolver.Stepper.bisection_converges"
   ],
   "note": "Exact arithmetic."
  },
  {
   "property": "C74",
   "status": "partial",
   "theorems": [
    "DiscSolver.Runners.csv_row_round_trip",
    "DiscSolver.Runners.csv_output_round_trip",
    "DiscSolver.Runners.csv_appended_header"
   ],
   "note": "True for one csvrunner per file, an MCMC selection that is not empty, and values on one line; false of the code for a file written to twice."
  },
  {
   "property": "C75",
   "status": "proved",
   "theorems": [
    "DiscSolver.SonicRoot.residual_zero_iff",
    "DiscSolver.SonicRoot.residual_zero_discontinuous",
    "DiscSolver.SonicRoot.failed_evaluation_value",
    "DiscSolver.SonicRoot.first_guess_extrapolates",
    "DiscSolver.SonicRoot.sonic_start",
    "DiscSolver.SonicRoot.nan_guess_fails",
    "DiscSolver.SonicRootRun.failed_value"
   ],
   "note": "The objective does not compare the derivative of the azimuthal field, which the search varies (residual_zero_discontinuous)."
  },
  {
   "property": "C76",
   "status": "partial",
   "theorems": [
    "DiscSolver.SonicRoot.solver_returns",
    "DiscSolver.SonicRoot.solver_raises_on_success",
    "DiscSolver.SonicRoot.evaluations_store",
    "DiscSolver.SonicRootRun.solver_stores",
    "DiscSolver.SonicRootRun.solver_outcome"
   ],
   "note": "False for evaluations that succeed: the solver raises AttributeError as soon as the integration from the sonic point succeeds (solver_raises_on_success). When it returns, the stored solutions, the final solution and the verdict are as stated, with failed sonic parts only."
  },
  {
   "property": "C77",
   "status": "partial",
   "theorems": [
    "DiscSolver.Hydro.hydro_azimuthal_preserved",
    "DiscSolver.Hydro.X_dash_error",
    "DiscSolver.Hydro.hydro_radial_drift",
    "DiscSolver.Hydro.hydro_radial_drift_general",
    "DiscSolver.Hydro.hydro_radial_not_preserved",
    "DiscSolver.ModHydro.mod_hydro_azimuthal_preserved",
    "DiscSolver.ModHydro.mod_hydro_radial_drift",
    "DiscSolver.ModHydro.mod_hydro_radial_drift_general",
    "DiscSolver.ModHydro.mod_hydro_radial_not_preserved",
    "DiscSolver.ModHydro.mod_hydro_E_r_azimuthal",
    "DiscSolver.ModHydro.mod_hydro_E_r_radial",
    "DiscSolver.ModHydro.mod_hydro_E_r_error",
    "DiscSolver.ModHydro.mod_hydro_E_r_ohmic"
   ],
   "note": "Azimuthal balance is kept in all formulations. The radial balance is false of the code in the B_phi prime formulations: the exact drift is proved for any diffusion, and shown to be nonzero on a concrete curve; in the E_r formulation the linearised balance holds exactly, and the stored E_r deviates from Ohm's law by an explicit Hall/ambipolar term."
  },
  {
   "property": "C78",
   "status": "proved",
   "theorems": [
    "DiscSolver.Hydro.hydro_midplane",
    "DiscSolver.Hydro.hydro_solver",
    "DiscSolver.ModHydro.mod_hydro_midplane",
    "DiscSolver.ModHydro.mod_hydro_E_r_start",
    "DiscSolver.ModHydro.mod_hydro_solver"
   ],
   "note": "The modified model balances the radial forces linearised about Keplerian rotation; the E_r start shows the initial inflow is a root of the cubic."
  },
  {
   "property": "C79",
   "status": "partial",
   "theorems": [
    "DiscSolver.Stats.maxOf_spec",
    "DiscSolver.Stats.max_diff_hides",
    "DiscSolver.Stats.Sigma_depends_on_sampling",
    "DiscSolver.Stats.Sigma_uniform"
   ],
   "note": "False of the code: the largest signed value hides arbitrarily large negative residuals, and the surface density is proportional to the number of samples of a uniform solution. The theorems give the exact values."
  },
  {
   "property": "C80",
   "status": "partial",
   "theorems": [
    "DiscSolver.Stats.mass_balance",
    "DiscSolver.Stats.M_dot_out_exact",
    "DiscSolver.Stats.ratio_depends_on_unit",
    "DiscSolver.Stats.ratio_wit"
   ],
   "note": "The balance the ratio should express is proved of the flow; the code's ratio is proved to depend on the unit of length through the factor r^(2 gamma - 1)."
  },
  {
   "property": "C81",
   "status": "partial",
   "theorems": [
    "DiscSolver.Plots.figures_independent",
    "DiscSolver.Plots.plot_shows",
    "DiscSolver.Plots.plot_extras",
    "DiscSolver.Plots.plot_marks",
    "DiscSolver.Plots.plot_scales",
    "DiscSolver.Plots.vert_shows",
    "DiscSolver.Plots.vert_scales",
    "DiscSolver.Plots.vertRows_ok_iff",
    "DiscSolver.Plots.vert_refuses_E_r",
    "DiscSolver.Plots.params_shows",
    "DiscSolver.Plots.derivs_shows",
    "DiscSolver.Plots.log_curves_points",
    "DiscSolver.Plots.params_title_wrong",
    "DiscSolver.Plots.stale_offset"
   ],
   "note": "All figures are independent of history and show the named rows. One title is wrong: the parameter plot announces v_phi - v_k but shows v_phi (params_title_wrong). The shared settings themselves keep a stale offset (stale_offset), which no modelled figure shows."
  },
  {
   "property": "C82",
   "status": "partial",
   "theorems": [
    "DiscSolver.AnalysisPlots.component_parts",
    "DiscSolver.AnalysisPlots.components_add_up_partial",
    "DiscSolver.AnalysisPlots.radial_components_wrong",
    "DiscSolver.AnalysisPlots.component_totals",
    "DiscSolver.AnalysisPlots.component_choice"
   ],
   "note": "False of the code for the radial momentum equation, whose terms miss half of v_r squared (radial_components_wrong); true of the others."
  },
  {
   "property": "C83",
   "status": "partial",
   "theorems": [
    "DiscSolver.AnalysisPlots.je_plot_shows",
    "DiscSolver.AnalysisPlots.je_plot_refuses_E_r",
    "DiscSolver.AnalysisPlots.combine_shows",
    "DiscSolver.AnalysisPlots.combine_alfven_wrong",
    "DiscSolver.AnalysisPlots.signed_curves",
    "DiscSolver.AnalysisPlots.taylor_values_shown",
    "DiscSolver.AnalysisPlots.taylor_ratio_wrong_angle",
    "DiscSolver.AnalysisPlots.range_ignored",
    "DiscSolver.AnalysisPlots.acc_shows",
    "DiscSolver.AnalysisPlots.internal_data_needed",
    "DiscSolver.AnalysisPlots.surface_density_shows",
    "DiscSolver.AnalysisPlots.surface_density_sampling",
    "DiscSolver.AnalysisPlots.sonic_ratio_shows",
    "DiscSolver.AnalysisPlots.v_deriv_shows"
   ],
   "note": "False of the code: the combined plot scales the Alfven speed wrongly, the ratio of Taylor series is drawn at other angles, two plots ignore the range asked for, and the surface density is a sum of samples. All else proved."
  },
  {
   "property": "C84",
   "status": "partial",
   "theorems": [
    "DiscSolver.AnalysisPlots.assign_spec",
    "DiscSolver.AnalysisPlots.assignAll_spec",
    "DiscSolver.AnalysisPlots.ratioLoop_names",
    "DiscSolver.AnalysisPlots.printed_ok",
    "DiscSolver.AnalysisPlots.ratio_plot_ok",
    "DiscSolver.AnalysisPlots.ratio_positions",
    "DiscSolver.AnalysisPlots.eleven_ok",
    "DiscSolver.AnalysisPlots.ratio_plot_empty",
    "DiscSolver.AnalysisPlots.ratio_marks_partial",
    "DiscSolver.AnalysisPlots.ratio_colors_collide"
   ],
   "note": "True for at most ten colours and twenty-two markers; beyond that values collide (ratio_colors_collide)."
  },
  {
   "property": "C85",
   "status": "partial",
   "theorems": [
    "DiscSolver.Info.solution_filter_partial",
    "DiscSolver.Info.filter_downward",
    "DiscSolver.Info.filter_literal_end",
    "DiscSolver.Info.filter_dashes",
    "DiscSolver.Info.filter_selects"
   ],
   "note": "True for names without dashes and upward ranges; downward ranges give their last number only, the end of a range is taken literally, names with dashes raise ValueError."
  },
  {
   "property": "C86",
   "status": "partial",
   "theorems": [
    "DiscSolver.Info.crosses_report_partial",
    "DiscSolver.Info.crosses_report_above",
    "DiscSolver.Info.sonic_angle_found",
    "DiscSolver.Info.sonic_angle_above",
    "DiscSolver.Info.info_missing",
    "DiscSolver.Info.info_output",
    "DiscSolver.Info.info_groups",
    "DiscSolver.Info.info_sonic_on_scale",
    "DiscSolver.Info.info_solutions",
    "DiscSolver.Info.info_empty_solution"
   ],
   "note": "False of the code: a solution above the wave speeds from its first row is reported as crossing nothing, sonic-on-scale ignores the output given and raises TypeError without a sonic point, and a missing solution 0 hides the run. The rest is proved."
  },
  {
   "property": "C87",
   "status": "proved",
   "theorems": [
    "DiscSolver.PySlice.positions_up",
    "DiscSolver.PySlice.positions_down",
    "DiscSolver.PySlice.positions_in_range",
    "DiscSolver.PySlice.index_spec",
    "DiscSolver.PySlice.index_zip",
    "DiscSolver.PySlice.index_tail",
    "DiscSolver.interp_samples"
   ],
   "note": "The interpolation routine itself is a parameter."
  },
  {
   "property": "C88",
   "status": "partial",
   "theorems": [
    "DiscSolver.SonicPoint.sonic_slope_iff",
    "DiscSolver.SonicPoint.sonic_slope_error",
    "DiscSolver.SonicPoint.sonic_slope_partial",
    "DiscSolver.SonicPoint.sonic_slope_returned_partial",
    "DiscSolver.SonicPoint.sonic_slope_wrong",
    "DiscSolver.SonicPoint.sonic_returns",
    "DiscSolver.SonicPoint.sonic_raises"
   ],
   "note": "True for purely Ohmic diffusion. False otherwise: the second derivative of B_φ misses a term in C, and the derivatives of C and Z_5 have a wrong and a halved ambipolar term (sonic_slope_error, sonic_slope_wrong). The quadratic solver is a parameter with a stated contract."
  },
  {
   "property": "C89",
   "status": "proved",
   "theorems": [
    "DiscSolver.Jacobian.jacobian_entries",
    "DiscSolver.Jacobian.jacobian_of_solver",
    "DiscSolver.Jacobian.jacobian_accurate",
    "DiscSolver.Jacobian.jacobian_step",
    "DiscSolver.Jacobian.jacobian_exact",
    "DiscSolver.Jacobian.jacobian_at_index"
   ],
   "note": "Over exact reals: rounding, which limits how small a step is useful, is not modelled. jacobian_at_index also shows that the index -1 is always an IndexError."
  },
  {
   "property": "C90",
   "status": "partial",
   "theorems": [
    "DiscSolver.Jacobian.coef_global",
    "DiscSolver.Jacobian.coef_local",
    "DiscSolver.Jacobian.real_coefs",
    "DiscSolver.Jacobian.real_parts_lose",
    "DiscSolver.Jacobian.coef_plot",
    "DiscSolver.Jacobian.coef_plot_missing",
    "DiscSolver.Jacobian.coef_plot_errors"
   ],
   "note": "True with the eigenvectors of the critical point, and with those of each row when they are real. False otherwise: only the real parts of the coefficients are kept (real_parts_lose), and with the eigenvectors of the critical point a missing critical point is an IndexError (coef_plot_missing). eig and inv are parameters with a stated contract."
  },
  {
   "property": "C91",
   "status": "proved",
   "theorems": [
    "DiscSolver.Jacobian.log_complex",
    "DiscSolver.Jacobian.eigenvalue_plot",
    "DiscSolver.Jacobian.eigenvector_plot",
    "DiscSolver.Jacobian.norm_plot",
    "DiscSolver.Jacobian.no_step_no_plot"
   ],
   "note": "eigvals and eig are parameters."
  },
  {
   "property": "C92",
   "status": "partial",
   "theorems": [
    "DiscSolver.Stats.max_mach_any",
    "DiscSolver.Stats.max_mach_nan",
    "DiscSolver.Stats.mach_no_vertical_field",
    "DiscSolver.Stats.starts_monotonic",
    "DiscSolver.Stats.ends_low",
    "DiscSolver.Stats.max_jet",
    "DiscSolver.Stats.reported_partial",
    "DiscSolver.Stats.max_B_hides",
    "DiscSolver.Stats.max_B_inverted"
   ],
   "note": "reported_partial is about solutions that start at rest with matter and a vertical field in every row, and gives every column. False for max_B_p_on_B_t: the ratio is inverted (max_B_inverted) and signed, so that a toroidal field which is nowhere positive is reported as zero (max_B_hides). The sonic points are in radians although the other angles are in degrees."
  },
  {
   "property": "C93",
   "status": "partial",
   "theorems": [
    "DiscSolver.Cli.options_effective",
    "DiscSolver.Cli.accepted_iff",
    "DiscSolver.Cli.usage_error",
    "DiscSolver.Cli.flow_effective",
    "DiscSolver.Cli.ds_plot_effective",
    "DiscSolver.Cli.coef_effective",
    "DiscSolver.Cli.jacobian_effective",
    "DiscSolver.Cli.common_effective",
    "DiscSolver.Cli.vert_ignores_v_θ"
   ],
   "note": "Proved for all the commands about one solution, except that ds-vert-plot accepts --v_θ and ignores it (vert_ignores_v_θ). argparse is modelled as documented: options written in full, each with its value as one parsed item."
  },
  {
   "property": "C94",
   "status": "partial",
   "theorems": [
    "DiscSolver.Cli.many_effective",
    "DiscSolver.Cli.compare_effective",
    "DiscSolver.Cli.many_needs_runs",
    "DiscSolver.Cli.parsed_runs",
    "DiscSolver.Cli.sortedSolutions_spec",
    "DiscSolver.Cli.conserve_effective",
    "DiscSolver.Cli.diverge_effective",
    "DiscSolver.Cli.compare_ignores_E_r"
   ],
   "note": "Proved for the commands about several solutions and about whole files. False without --runs, which is a KeyError instead of a usage error (many_needs_runs), and for ds-compare-plot of runs in the E_r formulation, which are labelled as if they were not (compare_ignores_E_r)."
  },
  {
   "property": "C95",
   "status": "partial",
   "theorems": [
    "DiscSolver.CliSolve.soln_usage_error",
    "DiscSolver.CliSolve.soln_unknown_field",
    "DiscSolver.CliSolve.soln_effective",
    "DiscSolver.CliSolve.method_given",
    "DiscSolver.CliSolve.soln_runs",
    "DiscSolver.CliSolve.soln_result",
    "DiscSolver.CliSolve.resoln_usage_error",
    "DiscSolver.CliSolve.resoln_unknown_field",
    "DiscSolver.CliSolve.resoln_effective",
    "DiscSolver.CliSolve.csvrunner_effective",
    "DiscSolver.CliSolve.hdf5runner_effective",
    "DiscSolver.CliSolve.runners_refuse",
    "DiscSolver.CliSolve.csvrunner_ignores",
    "DiscSolver.CliSolve.hdf5runner_ignores",
    "DiscSolver.CliSolve.hdf5runner_names"
   ],
   "note": "True of ds-soln and ds-resoln. False of the runners, which take and ignore options: ds-csvrunner --output-dir, ds-hdf5runner --output-file, and both the options of the log (csvrunner_ignores, hdf5runner_ignores, hdf5runner_names)."
  },
  {
   "property": "C96",
   "status": "partial",
   "theorems": [
    "DiscSolver.ShockRun.continuation_input",
    "DiscSolver.ShockRun.continuation_options",
    "DiscSolver.ShockRun.shock_search",
    "DiscSolver.ShockRun.shock_fails",
    "DiscSolver.ShockRun.shock_searches",
    "DiscSolver.ShockRun.shock_solve",
    "DiscSolver.ShockRun.shock_start",
    "DiscSolver.ShockRun.shock_job",
    "DiscSolver.ShockRun.shock_saved",
    "DiscSolver.ShockRun.shock_ends",
    "DiscSolver.ShockRun.shock_never_overwrites",
    "DiscSolver.ShockRun.shock_no_directory",
    "DiscSolver.ShockFiles.continuation_agrees"
   ],
   "note": "True if the file of the continuation can be made, is not there yet and has a name of its own, and the configuration has a label. False otherwise: without the directory shock_tests nothing is stored and the command still ends normally (shock_no_directory)."
  },
  {
   "property": "C97",
   "status": "proved",
   "theorems": [
    "DiscSolver.Flow.axline_angle",
    "DiscSolver.Flow.flow_ok_iff",
    "DiscSolver.Flow.flow_curves",
    "DiscSolver.Flow.flow_lines",
    "DiscSolver.Flow.flow_max_line",
    "DiscSolver.Flow.flow_plot",
    "DiscSolver.Flow.saved",
    "DiscSolver.Flow.save_never_overwrites",
    "DiscSolver.Flow.save_order",
    "DiscSolver.Flow.save_start_outside"
   ],
   "note": "The points of a line may be repeated at the edge of the solution (C63). The command ds-traj never reaches save_trajectory (C63, traj_main_fails). A start above the solution leaves a file with a header only (save_start_outside)."
  },
  {
   "property": "C98",
   "status": "partial",
   "theorems": [
    "DiscSolver.CliDump.tocsv_writes",
    "DiscSolver.CliDump.tocsv_fails",
    "DiscSolver.CliDump.tocsv_ok_iff",
    "DiscSolver.CliDump.tocfg_writes",
    "DiscSolver.CliDump.tocfg_round_trip",
    "DiscSolver.CliDump.tocfg_failure_empties",
    "DiscSolver.CliDump.tocfg_loses_file",
    "DiscSolver.CliDump.tocfg_not_found",
    "DiscSolver.CliDump.stats_writes",
    "DiscSolver.CliDump.dumpcsv_writes",
    "DiscSolver.CliDump.many_stops",
    "DiscSolver.CliDump.tables_only_grow",
    "DiscSolver.CliDump.tocsv_collects",
    "DiscSolver.CliDump.info_unknown_group",
    "DiscSolver.CliDump.info_prints"
   ],
   "note": "True but for the last sentence: ds-tocfg opens its output before it converts the input, so if the conversion fails (a label with a single percent sign, an input C39 or C42 excludes) the file given is emptied (tocfg_failure_empties, tocfg_loses_file). The names written by ds-stats and ds-dumpcsv are repeated with every use. What was written before an exception is taken to reach the file although open_or_stream does not close it."
  },
  {
   "property": "C99",
   "status": "proved",
   "theorems": [
    "DiscSolver.physical_solution",
    "DiscSolver.physical_isothermal",
    "DiscSolver.physical_toroidal_field_zero",
    "DiscSolver.physical_midplane",
    "DiscSolver.physical_eq",
    "DiscSolver.physical_electric"
   ],
   "note": ""
  },
  {
   "property": "C100",
   "status": "partial",
   "theorems": [
    "DiscSolver.Hydro.hydro_refused",
    "DiscSolver.Hydro.hydro_run",
    "DiscSolver.Hydro.hydro_call",
    "DiscSolver.Hydro.hydro_records",
    "DiscSolver.Hydro.hydro_problems_partial",
    "DiscSolver.Hydro.hydro_fixed_rows",
    "DiscSolver.Hydro.hydro_conditions_kept",
    "DiscSolver.Hydro.hydro_conditions_overwritten",
    "DiscSolver.Hydro.hydro_conditions_not_kept",
    "DiscSolver.Hydro.hydro_rejection_unrecorded",
    "DiscSolver.Hydro.hydro_solver_run",
    "DiscSolver.Hydro.hydro_scale",
    "DiscSolver.Hydro.hydro_scale_matters",
    "DiscSolver.ModHydro.mod_refused",
    "DiscSolver.ModHydro.mod_run",
    "DiscSolver.ModHydro.mod_call",
    "DiscSolver.ModHydro.mod_records",
    "DiscSolver.ModHydro.mod_accepted_length",
    "DiscSolver.ModHydro.mod_problems",
    "DiscSolver.ModHydro.mod_rows_as_calls",
    "DiscSolver.ModHydro.mod_row_balanced",
    "DiscSolver.ModHydro.mod_solver_run",
    "DiscSolver.ModHydro.mod_roots_not_fixed"
   ],
   "note": "False of the code in four places, each proved with a witness: a call the hydrostatic solver rejects for want of a common solution of its balances is not recorded; asking for fixed velocities zeroes the velocities of the caller's initial conditions; the angles handed to the integrator are not put on its scale, so the reported ones depend on theta_scale (the solvers themselves always use 1); the states at roots keep the velocities the electric field formulation replaces in the rows."
  },
  {
   "property": "C101",
   "status": "proved",
   "theorems": [
    "DiscSolver.ConfDoc.conf_doc_meaning",
    "DiscSolver.ConfDoc.conf_doc_error",
    "DiscSolver.ConfDoc.conf_doc_same",
    "DiscSolver.ConfDoc.conf_doc_no_sections",
    "DiscSolver.ConfDoc.conf_doc_circle",
    "DiscSolver.ConfDoc.conf_refused_junk",
    "DiscSolver.ConfDoc.conf_refused_headless",
    "DiscSolver.ConfDoc.conf_refused_twice",
    "DiscSolver.ConfDoc.conf_refused_section",
    "DiscSolver.ConfDoc.before_set_template",
    "DiscSolver.ConfDoc.before_set_stray",
    "DiscSolver.ConfDoc.before_set_not_enough"
   ],
   "note": "conf_doc_meaning is an equivalence, so it also says which files are refused. conf_doc_no_sections: options of DEFAULT count for nothing while the section itself is missing. before_set_not_enough: `%(a)%%s` can be written but not read. Options over several lines are in C42."
  },
  {
   "property": "C102",
   "status": "proved",
   "theorems": [
    "DiscSolver.EndToEnd.soln_end_to_end",
    "DiscSolver.EndToEnd.soln_first_row",
    "DiscSolver.EndToEnd.soln_succeeds",
    "DiscSolver.EndToEnd.asked_unique"
   ],
   "note": "Composes the models of C54, C95, C101, C16 and C20 with Model/SingleRun, which says how the run takes its numbers from the input. soln_first_row assumes that the integrator returns the state it was given as its first row. Numbers are exact reals; the conversions from text are arguments. Methods other than single are arguments."
  },
  {
   "property": "C103",
   "status": "proved",
   "theorems": [
    "DiscSolver.EndToEnd.history_end_to_end",
    "DiscSolver.EndToEnd.history_same",
    "DiscSolver.EndToEnd.resoln_repeats",
    "DiscSolver.EndToEnd.resoln_default_name",
    "DiscSolver.EndToEnd.resoln_no_such"
   ],
   "note": "Histories are the inductive predicate of Spec/Resolve. The integrator is a function of its arguments: the same problem is integrated the same way. Files are read back as they were written (the encoding is C43). Numbers are exact reals."
  },
  {
   "property": "C104",
   "status": "proved",
   "theorems": [
    "DiscSolver.TaylorSpace.scan_plots",
    "DiscSolver.TaylorSpace.disc_regular",
    "DiscSolver.TaylorSpace.disc_second",
    "DiscSolver.TaylorSpace.scan_out_of_limits",
    "DiscSolver.TaylorSpace.scan_empty"
   ],
   "note": "Numbers are exact reals; the numbers drawn are arguments in [0, 1). What spaceplots does with the limits is outside the model."
  },
  {
   "property": "C105",
   "status": "proved",
   "theorems": [
    "DiscSolver.StepRun.search_end_to_end",
    "DiscSolver.StepRun.search_status",
    "DiscSolver.StepRun.search_returns",
    "DiscSolver.StepRun.accepted_iff",
    "DiscSolver.StepRun.moves_exact"
   ],
   "note": "The statements about one search hold for any arithmetic on gamma, so with rounding; that the status is zero exactly if the last solution is acceptable needs exact arithmetic, since a search whose gamma no longer changes ends with the last solution as if it were acceptable (Stuck). The integrator is an argument."
  },
  {
   "property": "C106",
   "status": "proved",
   "theorems": [
    "DiscSolver.solution_internal",
    "DiscSolver.witJ_rows"
   ],
   "note": "The integrator decides which calls are made and is an argument."
  },
  {
   "property": "C107",
   "status": "partial",
   "theorems": [
    "DiscSolver.Hydro.hydro_faraday_deviation",
    "DiscSolver.Hydro.hydro_faraday_not_kept",
    "DiscSolver.ModHydro.mod_hydro_E_r_faraday",
    "DiscSolver.ModHydro.mod_hydro_faraday_deviation",
    "DiscSolver.ModHydro.mod_hydro_faraday_not_kept"
   ],
   "note": "True in the E_r formulation (mod_hydro_E_r_faraday). False of the code in both B_phi prime formulations: the exact deviation is proved for any state and diffusion, and is nonzero on concrete curves with Ohmic diffusion only."
  },
  {
   "property": "C108",
   "status": "partial",
   "theorems": [
    "DiscSolver.CrosserRun.crosser_end_to_end",
    "DiscSolver.CrosserRun.crosser_gives_up",
    "DiscSolver.CrosserRun.crosser_three",
    "DiscSolver.CrosserRun.witCross_returns",
    "DiscSolver.CrosserRun.witCross_lost"
   ],
   "note": "Proved for every run which returns. False of the code: if nothing is found at the three velocities the command ends with IndexError (crosser_three, witCross_lost), and the solution to ninety degrees is stored twice. The velocities are exact reals, the arithmetic on gamma is any."
  },
  {
   "property": "C109",
   "status": "partial",
   "theorems": [
    "DiscSolver.MemRun.csv_single_row",
    "DiscSolver.MemRun.csv_step_row",
    "DiscSolver.MemRun.csv_step_first",
    "DiscSolver.MemRun.csv_crosser_row_partial",
    "DiscSolver.MemRun.csv_output_partial",
    "DiscSolver.MemRun.csv_row_without_disc",
    "DiscSolver.MemRun.memory_gives_up",
    "DiscSolver.MemRun.wit_row",
    "DiscSolver.MemRun.wit_output"
   ],
   "note": "Proved for single and step, and for the output as a whole. False of fast_crosser: the next input of the outer search is written into the input of the solution stored last, so a search whose last attempt finds nothing writes a row which has no solution (csv_row_without_disc for all such tables, wit_output for one command). Every way it can fail is listed in csv_crosser_row_partial."
  },
  {
   "property": "C110",
   "status": "partial",
   "theorems": [
    "DiscSolver.McmcRun.mcmc_end_to_end_partial",
    "DiscSolver.McmcRun.mcmc_returns",
    "DiscSolver.McmcRun.status_zero_without_solution",
    "DiscSolver.McmcRun.wit_found"
   ],
   "note": "Proved for every run which returns, and returning is proved if the sampler does not raise and the integrator finds a solution or gives up at each position. False of the code: the exit status is zero even if no solution was found (status_zero_without_solution). Numbers are exact reals, so every solution has a finite probability."
  },
  {
   "property": "C111",
   "status": "proved",
   "theorems": [
    "DiscSolver.HydroMethods.hydrostatic_end_to_end",
    "DiscSolver.HydroMethods.hydrostatic_first_row",
    "DiscSolver.HydroMethods.hydrostatic_stored_derivatives",
    "DiscSolver.HydroMethods.hydrostatic_returns",
    "DiscSolver.HydroMethods.mod_hydro_end_to_end",
    "DiscSolver.HydroMethods.mod_hydro_rows_balanced",
    "DiscSolver.HydroMethods.mod_hydro_returns"
   ],
   "note": "The integrators and the root tracker are arbitrary; the first row needs an integrator which reports its start, and balanced rows a tracker which finds a root whenever there is one. Rows are balanced where the density is positive, there is no vertical flow and the denominators of the solver do not vanish. Inputs for which the midplane divides by zero are not covered (DESIGN)."
  },
  {
   "property": "C112",
   "status": "proved",
   "theorems": [
    "DiscSolver.Hdf5Run.table_rows",
    "DiscSolver.Hdf5Run.row_same_as_soln",
    "DiscSolver.Hdf5Run.methods_same_as_soln",
    "DiscSolver.Hdf5Run.methods_blind",
    "DiscSolver.Hdf5Run.report_spec"
   ],
   "note": "Every row needs a file name of its own, new and writable: names hold the time and the name of the process, which the model takes as given. mcmc is compared for the same random numbers and sonic_root for the same root search."
  },
  {
   "property": "C113",
   "status": "partial",
   "theorems": [
    "DiscSolver.SonicRootRun.sonic_root_end_to_end_partial",
    "DiscSolver.SonicRootRun.sonic_root_outcome",
    "DiscSolver.SonicRootRun.witS_returns",
    "DiscSolver.SonicRootRun.witS_raises"
   ],
   "note": "False of the code for guesses which work: as soon as the integration back from the sonic point ends well, ds-soln stops with AttributeError and leaves a file with the midplane part, the failed guesses before and no final solution (sonic_root_outcome; witS_raises is such a run). Also false: the initial conditions stored with a joined solution are those at the sonic point of its guess, not those of the midplane. Proved part: everything else, for every sequence of guesses and every verdict. The root search is arbitrary; the integrator is arbitrary."
  },
  {
   "property": "C114",
   "status": "proved",
   "theorems": [
    "DiscSolver.Sessions.session_good",
    "DiscSolver.Sessions.solved_again",
    "DiscSolver.Sessions.solved_with",
    "DiscSolver.Sessions.unfinished_not_solved"
   ],
   "note": "Needs that two numbers which compare equal are equal (the model's comparison of stored floats). The solution found is a function of the input: the integrator, the interpolation and the printing of numbers are the same in all commands (and in the workers of ds-hdf5runner); random numbers, the sampler and the person asked may differ each time. sonic_root and the hydrostatic methods store solutions another method found, so single does not repeat them; they are left out, and so are continuations behind a shock (C117). Inputs for which the midplane divides by zero are not covered (DESIGN)."
  },
  {
   "property": "C115",
   "status": "proved",
   "theorems": [
    "DiscSolver.Sessions.resoln_same_as_soln",
    "DiscSolver.Sessions.resoln_goes_on"
   ],
   "note": "Values which are not replaced are compared as read: ds-resoln takes them from the stored solution and not from the text. mcmc is compared for the same random numbers and sonic_root for the same root search."
  },
  {
   "property": "C116",
   "status": "partial",
   "theorems": [
    "DiscSolver.Saving.session_ready",
    "DiscSolver.Saving.saved_partial",
    "DiscSolver.Saving.soln_complete",
    "DiscSolver.Saving.resoln_complete",
    "DiscSolver.Saving.table_complete",
    "DiscSolver.Saving.shock_complete",
    "DiscSolver.Saving.unreadable_not_saved",
    "DiscSolver.Saving.incomplete_not_saved",
    "DiscSolver.Saving.unfinished_not_loaded"
   ],
   "note": "True of every finished run whose configuration is complete and has whole numbers for max_steps, num_angles, nwalkers, iterations and threads (saved_partial); ds-soln, ds-resoln and ds-shock keep configurations complete, and ds-hdf5runner does for tables without short rows (soln_complete, resoln_complete, shock_complete, table_complete). A configuration which is not complete cannot be written (incomplete_not_saved). False otherwise: str_to_int turns other text into None without complaint, the method runs, and its solutions cannot be written (unreadable_not_saved); a run that raised before it had a final solution may be written but cannot be loaded (unfinished_not_loaded). The runs are written as the objects of Model/FileFormat by Spec/Saving; numbers are exact reals, arrays are stored exactly."
  },
  {
   "property": "C117",
   "status": "proved",
   "theorems": [
    "DiscSolver.ShockFiles.slice_unused",
    "DiscSolver.ShockFiles.continuation_agrees",
    "DiscSolver.ShockFiles.continuation_ok",
    "DiscSolver.ShockFiles.finish_eq",
    "DiscSolver.ShockFiles.pool_progress",
    "DiscSolver.ShockFiles.shock_runs",
    "DiscSolver.ShockFiles.shock_all",
    "DiscSolver.Sessions.session_good",
    "DiscSolver.Sessions.continuation_lost"
   ],
   "note": "shock_runs says what the files hold for every order of the steps; a worker which is not stopped ends with the continuation in its run (finish_eq). That each candidate gets a file of its own when it can is C96. continuation_lost is about the method single and values that can be read; like C114 it needs that two numbers which compare equal are equal. The command line of ds-shock, its plots and what it prints are not in this model (see C96)."
  },
  {
   "property": "C118",
   "status": "proved",
   "theorems": [
    "DiscSolver.Approx.gradient_quadratic",
    "DiscSolver.Approx.gradient_ends",
    "DiscSolver.Approx.approx_rows",
    "DiscSolver.Approx.stats_solenoid",
    "DiscSolver.Approx.stats_continuity",
    "DiscSolver.Approx.stats_radial",
    "DiscSolver.Approx.stats_azimuthal",
    "DiscSolver.Approx.stats_polar",
    "DiscSolver.Approx.stats_E_φ",
    "DiscSolver.Approx.reported_near",
    "DiscSolver.Approx.one_angle",
    "DiscSolver.Approx.left_out",
    "DiscSolver.Approx.internal_used",
    "DiscSolver.Approx.columns"
   ],
   "note": "numpy.gradient is modelled by its formula for unequal spacing (second order between the ends, one-sided at the ends); where two neighbouring angles are equal it gives inf or NaN, which is not covered. Exact arithmetic."
  }
 ]
}