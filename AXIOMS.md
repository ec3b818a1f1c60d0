# Axioms

The axioms each claimed theorem depends on, as printed by `#print axioms`.

## none (6)

* `DiscSolver.shock_run_fresh`
* `DiscSolver.problems_key_text`
* `DiscSolver.Csv.record_empty`
* `DiscSolver.Stats.unreadable_solution_hides`
* `DiscSolver.Streams.pool_closed`
* `DiscSolver.Streams.pool_error_lost`

## propext (14)

* `DiscSolver.Stepper.search_exhausted`
* `DiscSolver.Mcmc.sampled_variables`
* `DiscSolver.Csv.header_always`
* `DiscSolver.Stats.files_order`
* `DiscSolver.Stats.write_stats_header`
* `DiscSolver.Stats.columns_exact`
* `DiscSolver.Stats.row_raises`
* `DiscSolver.Trajectory.traj_main_fails`
* `DiscSolver.Trajectory.plot_main_runs`
* `DiscSolver.Streams.open_or_stream_leaks`
* `DiscSolver.Streams.open_or_stream_not_closed`
* `DiscSolver.Logging.verbose_file_empty`
* `DiscSolver.ShockRun.continuation_input`
* `DiscSolver.Hdf5Run.report_spec`

## propext, Quot.sound (39)

* `DiscSolver.add_solution_fresh`
* `DiscSolver.solutions_never_replaced`
* `DiscSolver.problems_lookup`
* `DiscSolver.problems_append`
* `DiscSolver.problems_history`
* `DiscSolver.problems_update`
* `DiscSolver.problems_join`
* `DiscSolver.problems_delete_partial`
* `DiscSolver.problems_delete_number_fails`
* `DiscSolver.problems_contains_everything`
* `DiscSolver.validate_overrides_ok`
* `DiscSolver.validate_overrides_unknown`
* `DiscSolver.Stepper.search_first_success`
* `DiscSolver.Stepper.search_error`
* `DiscSolver.Stepper.search_stop`
* `DiscSolver.Stepper.search_raises`
* `DiscSolver.Stepper.halvings_zero_iff`
* `DiscSolver.Stepper.halvings_step`
* `DiscSolver.Mcmc.sys_vars_round_trip`
* `DiscSolver.Mcmc.sys_vars_values`
* `DiscSolver.TaylorSpace.scan_rows`
* `DiscSolver.Csv.csv_comments`
* `DiscSolver.Csv.record_of_fields`
* `DiscSolver.Csv.record_written`
* `DiscSolver.Stats.visits_all`
* `DiscSolver.Stats.unreadable_file_skipped`
* `DiscSolver.Stats.unreadable_solution`
* `DiscSolver.Stats.writeLoop_value_errors`
* `DiscSolver.Stats.writeLoop_other_error`
* `DiscSolver.Stats.input_row_exact`
* `DiscSolver.Stats.stats_main_all`
* `DiscSolver.Plots.enough_colors`
* `DiscSolver.Plots.number_of_colors`
* `DiscSolver.Streams.open_or_stream_partial`
* `DiscSolver.Logging.stderr_exact`
* `DiscSolver.Logging.file_exact_partial`
* `DiscSolver.Logging.quiet_file`
* `DiscSolver.Info.filter_selects`
* `DiscSolver.Cli.sortedSolutions_spec`

## propext, Classical.choice, Quot.sound (677)

* `DiscSolver.rhs_solenoid`
* `DiscSolver.pde_div_free`
* `DiscSolver.rhs_continuity`
* `DiscSolver.pde_mass`
* `DiscSolver.rhs_radial_momentum`
* `DiscSolver.pde_momentum_r`
* `DiscSolver.rhs_azimuthal_momentum`
* `DiscSolver.pde_momentum_φ`
* `DiscSolver.rhs_polar_momentum`
* `DiscSolver.pde_momentum_θ`
* `DiscSolver.rhs_E_φ_zero`
* `DiscSolver.rhs_polar_induction`
* `DiscSolver.pde_toroidal_field_zero`
* `DiscSolver.E_r_recovery_error`
* `DiscSolver.E_r_recovered_partial`
* `DiscSolver.E_r_recovered_ohmic_partial`
* `DiscSolver.E_r_not_recovered`
* `DiscSolver.induction_error`
* `DiscSolver.induction_iff`
* `DiscSolver.induction_partial`
* `DiscSolver.induction_fails`
* `DiscSolver.pde_E_r_curl_free`
* `DiscSolver.currents_are_curl`
* `DiscSolver.electric_is_ohm`
* `DiscSolver.direction_unit`
* `DiscSolver.B_unit_derivs_correct`
* `DiscSolver.B_unit_derivs_orthogonal`
* `DiscSolver.rhs_diffusivity_scaling`
* `DiscSolver.rhs_diffusivity_const`
* `DiscSolver.rhs_code`
* `DiscSolver.rhs_call_eq`
* `DiscSolver.rhs_storage_independent`
* `DiscSolver.problems_recorded`
* `DiscSolver.witCalls_problems`
* `DiscSolver.internal_data_history`
* `DiscSolver.nothing_stored`
* `DiscSolver.recorded_aligned`
* `DiscSolver.join_aligned`
* `DiscSolver.flip_aligned`
* `DiscSolver.jacobian_aligned`
* `DiscSolver.witCalls_recorded`
* `DiscSolver.midplane_consistent`
* `DiscSolver.midplaneRotation_iff`
* `DiscSolver.define_conditions_fails_iff`
* `DiscSolver.define_conditions_outcomes`
* `DiscSolver.define_conditions_shape`
* `DiscSolver.define_conditions_fastest`
* `DiscSolver.taylor_first_order_unique`
* `DiscSolver.taylor_solenoid_partial`
* `DiscSolver.taylor_radial_partial`
* `DiscSolver.taylor_diffusivity_partial`
* `DiscSolver.taylor_E_r_partial`
* `DiscSolver.taylor_polar_error`
* `DiscSolver.taylor_polar_iff`
* `DiscSolver.taylor_azimuthal_error`
* `DiscSolver.taylor_azimuthal_iff`
* `DiscSolver.taylor_second_order_wrong`
* `DiscSolver.taylor_continuity_error`
* `DiscSolver.taylor_continuity_iff`
* `DiscSolver.taylor_third_order_wrong`
* `DiscSolver.taylor_requested_partial`
* `DiscSolver.taylor_numeric_partial`
* `DiscSolver.taylor_start_jump`
* `DiscSolver.taylor_recorded_late`
* `DiscSolver.taylor_start_mismatch`
* `DiscSolver.jump_lands`
* `DiscSolver.jump_direction_partial`
* `DiscSolver.jump_keeps_behind`
* `DiscSolver.conflict_iff`
* `DiscSolver.conflict_rejected`
* `DiscSolver.conflict_rejected_first_partial`
* `DiscSolver.conflict_rejected_late`
* `DiscSolver.solution_ok`
* `DiscSolver.one_crossing_mode`
* `DiscSolver.wave_dispersion`
* `DiscSolver.wave_order`
* `DiscSolver.fast_implies_all`
* `DiscSolver.critical_point_order`
* `DiscSolver.first_closest_some`
* `DiscSolver.first_closest_none`
* `DiscSolver.first_closest_raises`
* `DiscSolver.closest_sorted_partial`
* `DiscSolver.closest_sorted_iff`
* `DiscSolver.closest_sorted_not_closest`
* `DiscSolver.deduplicate_spec`
* `DiscSolver.deduplicate_fails`
* `DiscSolver.rotation_isometry`
* `DiscSolver.rotation_inverse`
* `DiscSolver.rotation_basis`
* `DiscSolver.convert_spec`
* `DiscSolver.convert_isometry`
* `DiscSolver.cylinder_radius_iff`
* `DiscSolver.cylindrical_partial`
* `DiscSolver.cylindrical_wrong_radius`
* `DiscSolver.scale_spec`
* `DiscSolver.scale_compose`
* `DiscSolver.scale_one`
* `DiscSolver.scale_invariants`
* `DiscSolver.scale_rows_spec`
* `DiscSolver.normalisation_consistent`
* `DiscSolver.shock_conserves`
* `DiscSolver.shock_unique`
* `DiscSolver.shock_unchanged`
* `DiscSolver.shock_angles_all`
* `DiscSolver.shock_slows`
* `DiscSolver.shock_involutive`
* `DiscSolver.nanargmax_spec`
* `DiscSolver.shock_candidates`
* `DiscSolver.shock_candidates_fails`
* `DiscSolver.angle_scale_inverse`
* `DiscSolver.angle_scale_order`
* `DiscSolver.solutions_stored_in_order`
* `DiscSolver.get_last_largest`
* `DiscSolver.get_last_most_recent`
* `DiscSolver.final_write_once`
* `DiscSolver.finalise_unset`
* `DiscSolver.finalise_set`
* `DiscSolver.finalise_idempotent`
* `DiscSolver.finalise_after_store`
* `DiscSolver.finalise_empty`
* `DiscSolver.get_final`
* `DiscSolver.get_named`
* `DiscSolver.get_latest_final`
* `DiscSolver.get_latest_unset`
* `DiscSolver.get_final_in_progress`
* `DiscSolver.add_overrides_ok`
* `DiscSolver.add_overrides_unknown`
* `DiscSolver.add_overrides_none`
* `DiscSolver.resolve_inputs`
* `DiscSolver.resolve_inputs_succeeds`
* `DiscSolver.input_round_trip_iff`
* `DiscSolver.input_round_trip_partial`
* `DiscSolver.to_config_input_fails`
* `DiscSolver.shock_input_not_convertible`
* `DiscSolver.slice_text_iff`
* `DiscSolver.slice_text_partial`
* `DiscSolver.slice_text_wrong`
* `DiscSolver.mcmc_text_round_trip`
* `DiscSolver.mcmc_config_iff`
* `DiscSolver.mcmc_read_spec`
* `DiscSolver.mcmc_unknown_accepted`
* `DiscSolver.conf_file_reads_back`
* `DiscSolver.conf_file_round_trip_iff`
* `DiscSolver.conf_file_reread`
* `DiscSolver.conf_file_round_trip`
* `DiscSolver.conf_file_round_trip_partial`
* `DiscSolver.conf_file_same_input`
* `DiscSolver.conf_file_label_loses`
* `DiscSolver.conf_file_mcmc_none`
* `DiscSolver.conf_file_percent`
* `DiscSolver.conf_file_percent_fails`
* `DiscSolver.dump_config_round_trip`
* `DiscSolver.no_conf_file`
* `DiscSolver.FileFormat.file_round_trip`
* `DiscSolver.FileFormat.collection_round_trip`
* `DiscSolver.FileFormat.Same.arrays`
* `DiscSolver.FileFormat.Same.field`
* `DiscSolver.FileFormat.solution_values_kept`
* `DiscSolver.FileFormat.unknown_not_saved`
* `DiscSolver.FileFormat.unfinished_run_unreadable`
* `DiscSolver.FileFormat.nan_diffusivity_unreadable`
* `DiscSolver.FileFormat.python_number_unreadable`
* `DiscSolver.FileFormat.derivatives_not_restored`
* `DiscSolver.FileFormat.trailing_zero_lost`
* `DiscSolver.FileFormat.old_file_loads_partial`
* `DiscSolver.FileFormat.old_run_loads`
* `DiscSolver.FileFormat.old_initial_conditions_load`
* `DiscSolver.FileFormat.old_inputs_unreadable`
* `DiscSolver.FileFormat.old_internal_data_unreadable`
* `DiscSolver.FileFormat.unreadable_member`
* `DiscSolver.FileFormat.old_inputs_not_saved_again`
* `DiscSolver.FileFormat.cache_keeps_migration`
* `DiscSolver.FileFormat.no_cache_loses_migration`
* `DiscSolver.Stepper.search_bounded`
* `DiscSolver.Stepper.watched_same`
* `DiscSolver.Stepper.solver_steps`
* `DiscSolver.Stepper.next_γ_exact`
* `DiscSolver.Stepper.next_γ_moves`
* `DiscSolver.Stepper.zero_γ_stuck`
* `DiscSolver.Stepper.recorded_input_on_file_partial`
* `DiscSolver.Stepper.recorded_input_final`
* `DiscSolver.Stepper.recorded_input_shifted`
* `DiscSolver.Stepper.recorded_input_wrong`
* `DiscSolver.Stepper.solver_stores_attempts`
* `DiscSolver.Stepper.solver_final`
* `DiscSolver.Stepper.solver_best_is_final`
* `DiscSolver.Stepper.solver_outcome`
* `DiscSolver.Stepper.validate_iff`
* `DiscSolver.Stepper.best_iff`
* `DiscSolver.Stepper.valid_sorted`
* `DiscSolver.Stepper.validate_accepts_nan`
* `DiscSolver.Stepper.nan_not_best`
* `DiscSolver.Stepper.splitter_velocity_partial`
* `DiscSolver.Stepper.splitter_negative_velocity`
* `DiscSolver.Stepper.splitter_sixth_row`
* `DiscSolver.Stepper.splitter_ignores_derivatives`
* `DiscSolver.Stepper.splitter_not_v_θ_deriv`
* `DiscSolver.Stepper.splitter_short`
* `DiscSolver.Stepper.splitter_unknown`
* `DiscSolver.FastCrosser.phases_forward`
* `DiscSolver.FastCrosser.climbs`
* `DiscSolver.FastCrosser.upward_sweep`
* `DiscSolver.FastCrosser.downward_sweep`
* `DiscSolver.FastCrosser.stuck_stops`
* `DiscSolver.FastCrosser.golden_section_start`
* `DiscSolver.FastCrosser.golden_section_leaves_bracket`
* `DiscSolver.FastCrosser.crosser_outcome`
* `DiscSolver.FastCrosser.crosser_attempt`
* `DiscSolver.FastCrosser.crosser_attempt_failed`
* `DiscSolver.FastCrosser.crosser_attempt_raises`
* `DiscSolver.FastCrosser.crosser_keeps_final`
* `DiscSolver.FastCrosser.crosser_final_not_best`
* `DiscSolver.Mcmc.valid_iff`
* `DiscSolver.Mcmc.invalid_not_solved`
* `DiscSolver.Mcmc.best_after_evaluations`
* `DiscSolver.Mcmc.mcmc_final`
* `DiscSolver.Mcmc.logprob_neg`
* `DiscSolver.Mcmc.logprob_faster`
* `DiscSolver.Mcmc.outflow_value`
* `DiscSolver.Mcmc.logprob_value`
* `DiscSolver.Mcmc.nan_valid`
* `DiscSolver.TaylorSpace.scan_partial`
* `DiscSolver.TaylorSpace.scan_mismatch`
* `DiscSolver.TaylorSpace.scan_swaps`
* `DiscSolver.TaylorSpace.scan_wrong`
* `DiscSolver.Runners.solve_never_overwrites`
* `DiscSolver.Runners.solve_one_file`
* `DiscSolver.Runners.solve_existing_output`
* `DiscSolver.Runners.solve_ok`
* `DiscSolver.Runners.solve_known_method`
* `DiscSolver.Runners.solve_unknown_method`
* `DiscSolver.Runners.resolve_never_overwrites`
* `DiscSolver.Runners.resolve_ok`
* `DiscSolver.Runners.single_stores_one`
* `DiscSolver.Runners.hdf5_exclusive`
* `DiscSolver.Runners.hdf5_never_overwrites`
* `DiscSolver.Runners.hdf5_distinct_paths`
* `DiscSolver.Runners.hdf5_fixed_name`
* `DiscSolver.Runners.hdf5_job_of_row`
* `DiscSolver.Csv.csv_file_inputs`
* `DiscSolver.Csv.csv_inputs`
* `DiscSolver.Csv.csv_inputs_unnamed`
* `DiscSolver.Csv.mem_columns`
* `DiscSolver.Csv.headerless_loses_row`
* `DiscSolver.Csv.multiline_value_loses_line`
* `DiscSolver.Runners.ofDict_ok_iff`
* `DiscSolver.Runners.row_needs`
* `DiscSolver.Runners.row_assumes`
* `DiscSolver.Runners.csvrunner_rows`
* `DiscSolver.Runners.csvrunner_progress`
* `DiscSolver.Runners.csvrunner_complete_partial`
* `DiscSolver.Runners.csvrunner_raise_stops`
* `DiscSolver.Runners.csv_find_some`
* `DiscSolver.Runners.csv_find_none`
* `DiscSolver.Runners.csv_find_raises`
* `DiscSolver.SonicRoot.conditions_kept_partial`
* `DiscSolver.SonicRoot.evaluation_overwrites`
* `DiscSolver.SonicRoot.search_overwrites`
* `DiscSolver.SonicRoot.evaluation_changes`
* `DiscSolver.SonicRoot.evaluation_other_arrays`
* `DiscSolver.SonicRoot.define_conditions_start`
* `DiscSolver.SonicRoot.equations_unaffected`
* `DiscSolver.SonicRoot.joined_rows`
* `DiscSolver.SonicRoot.joined_rest`
* `DiscSolver.SonicRoot.joined_ordered`
* `DiscSolver.SonicRoot.joined_internal_rows`
* `DiscSolver.SonicRoot.joined_internal_none`
* `DiscSolver.SonicRoot.stored_iff_failed`
* `DiscSolver.Hydro.hydro_outcomes`
* `DiscSolver.Hydro.hydro_statics`
* `DiscSolver.Hydro.hydro_frozen_velocities`
* `DiscSolver.Hydro.hydro_balanced_accepted`
* `DiscSolver.ModHydro.mod_hydro_outcomes`
* `DiscSolver.ModHydro.mod_hydro_statics`
* `DiscSolver.ModHydro.mod_hydro_E_r_writes`
* `DiscSolver.ValidatePlot.residuals_are_spec`
* `DiscSolver.ValidatePlot.checks_zero`
* `DiscSolver.ValidatePlot.plot_reports`
* `DiscSolver.ValidatePlot.validate_plot_zero_partial`
* `DiscSolver.ValidatePlot.polar_induction_error`
* `DiscSolver.ValidatePlot.polar_induction_not_zero`
* `DiscSolver.ValidatePlot.degrees_spec`
* `DiscSolver.ValidatePlot.E_func_ohm`
* `DiscSolver.ValidatePlot.E_values_ohm`
* `DiscSolver.ValidatePlot.E_dash_resistive`
* `DiscSolver.ValidatePlot.je_plot_E_φ_zero`
* `DiscSolver.ValidatePlot.hydro_check_azimuthal`
* `DiscSolver.ValidatePlot.hydro_check_radial`
* `DiscSolver.ValidatePlot.hydro_check_panels`
* `DiscSolver.ValidatePlot.hydro_check_refuses`
* `DiscSolver.ValidatePlot.checks_exact`
* `DiscSolver.ValidatePlot.recorded_derivs`
* `DiscSolver.ValidatePlot.demanded_exists`
* `DiscSolver.ValidatePlot.interpolated_checks`
* `DiscSolver.ValidatePlot.taylor_checks`
* `DiscSolver.ValidatePlot.validate_plot_exact`
* `DiscSolver.ValidatePlot.taylor_rows_not_zero`
* `DiscSolver.Stats.row_complete`
* `DiscSolver.Plots.compare_shows_all`
* `DiscSolver.Plots.compare_style`
* `DiscSolver.Plots.compare_error`
* `DiscSolver.Plots.conserve_shows_all`
* `DiscSolver.Plots.diverge_shows_all`
* `DiscSolver.Plots.diverge_colors`
* `DiscSolver.Trajectory.compute_values_direction`
* `DiscSolver.Trajectory.compute_values_unit`
* `DiscSolver.Trajectory.compute_values_edge`
* `DiscSolver.Trajectory.compute_values_only_index`
* `DiscSolver.Trajectory.follow_bounded`
* `DiscSolver.Trajectory.follow_steps_partial`
* `DiscSolver.Trajectory.step_distance`
* `DiscSolver.Trajectory.follow_start_outside`
* `DiscSolver.Trajectory.follow_stops_at_edge`
* `DiscSolver.Trajectory.follow_repeats`
* `DiscSolver.Trajectory.traj_keywords`
* `DiscSolver.Trajectory.plot_keywords`
* `DiscSolver.Streams.open_or_stream_body`
* `DiscSolver.scale_slope_partial`
* `DiscSolver.scale_changes_solution`
* `DiscSolver.flag_is_first_leg_partial`
* `DiscSolver.flag_hides_failure`
* `DiscSolver.solution_aligned`
* `DiscSolver.midplane_alfven_partial`
* `DiscSolver.midplane_alfven_iff`
* `DiscSolver.interp_for_value_partial`
* `DiscSolver.interp_for_value_outside`
* `DiscSolver.sonic_angle_crossing`
* `DiscSolver.shock_E_jump`
* `DiscSolver.shock_E_iff`
* `DiscSolver.shock_E_partial`
* `DiscSolver.shock_E_discontinuous`
* `DiscSolver.unreadable_int_accepted`
* `DiscSolver.unreadable_float_rejected_partial`
* `DiscSolver.Stepper.bisection_converges`
* `DiscSolver.Runners.csv_row_round_trip`
* `DiscSolver.Runners.csv_output_round_trip`
* `DiscSolver.Runners.csv_appended_header`
* `DiscSolver.SonicRoot.residual_zero_iff`
* `DiscSolver.SonicRoot.residual_zero_discontinuous`
* `DiscSolver.SonicRoot.failed_evaluation_value`
* `DiscSolver.SonicRoot.first_guess_extrapolates`
* `DiscSolver.SonicRoot.sonic_start`
* `DiscSolver.SonicRoot.nan_guess_fails`
* `DiscSolver.SonicRootRun.failed_value`
* `DiscSolver.SonicRoot.solver_returns`
* `DiscSolver.SonicRoot.solver_raises_on_success`
* `DiscSolver.SonicRoot.evaluations_store`
* `DiscSolver.SonicRootRun.solver_stores`
* `DiscSolver.SonicRootRun.solver_outcome`
* `DiscSolver.Hydro.hydro_azimuthal_preserved`
* `DiscSolver.Hydro.X_dash_error`
* `DiscSolver.Hydro.hydro_radial_drift`
* `DiscSolver.Hydro.hydro_radial_drift_general`
* `DiscSolver.Hydro.hydro_radial_not_preserved`
* `DiscSolver.ModHydro.mod_hydro_azimuthal_preserved`
* `DiscSolver.ModHydro.mod_hydro_radial_drift`
* `DiscSolver.ModHydro.mod_hydro_radial_drift_general`
* `DiscSolver.ModHydro.mod_hydro_radial_not_preserved`
* `DiscSolver.ModHydro.mod_hydro_E_r_azimuthal`
* `DiscSolver.ModHydro.mod_hydro_E_r_radial`
* `DiscSolver.ModHydro.mod_hydro_E_r_error`
* `DiscSolver.ModHydro.mod_hydro_E_r_ohmic`
* `DiscSolver.Hydro.hydro_midplane`
* `DiscSolver.Hydro.hydro_solver`
* `DiscSolver.ModHydro.mod_hydro_midplane`
* `DiscSolver.ModHydro.mod_hydro_E_r_start`
* `DiscSolver.ModHydro.mod_hydro_solver`
* `DiscSolver.Stats.maxOf_spec`
* `DiscSolver.Stats.max_diff_hides`
* `DiscSolver.Stats.Sigma_depends_on_sampling`
* `DiscSolver.Stats.Sigma_uniform`
* `DiscSolver.Stats.mass_balance`
* `DiscSolver.Stats.M_dot_out_exact`
* `DiscSolver.Stats.ratio_depends_on_unit`
* `DiscSolver.Stats.ratio_wit`
* `DiscSolver.Plots.figures_independent`
* `DiscSolver.Plots.plot_shows`
* `DiscSolver.Plots.plot_extras`
* `DiscSolver.Plots.plot_marks`
* `DiscSolver.Plots.plot_scales`
* `DiscSolver.Plots.vert_shows`
* `DiscSolver.Plots.vert_scales`
* `DiscSolver.Plots.vertRows_ok_iff`
* `DiscSolver.Plots.vert_refuses_E_r`
* `DiscSolver.Plots.params_shows`
* `DiscSolver.Plots.derivs_shows`
* `DiscSolver.Plots.log_curves_points`
* `DiscSolver.Plots.params_title_wrong`
* `DiscSolver.Plots.stale_offset`
* `DiscSolver.AnalysisPlots.component_parts`
* `DiscSolver.AnalysisPlots.components_add_up_partial`
* `DiscSolver.AnalysisPlots.radial_components_wrong`
* `DiscSolver.AnalysisPlots.component_totals`
* `DiscSolver.AnalysisPlots.component_choice`
* `DiscSolver.AnalysisPlots.je_plot_shows`
* `DiscSolver.AnalysisPlots.je_plot_refuses_E_r`
* `DiscSolver.AnalysisPlots.combine_shows`
* `DiscSolver.AnalysisPlots.combine_alfven_wrong`
* `DiscSolver.AnalysisPlots.signed_curves`
* `DiscSolver.AnalysisPlots.taylor_values_shown`
* `DiscSolver.AnalysisPlots.taylor_ratio_wrong_angle`
* `DiscSolver.AnalysisPlots.range_ignored`
* `DiscSolver.AnalysisPlots.acc_shows`
* `DiscSolver.AnalysisPlots.internal_data_needed`
* `DiscSolver.AnalysisPlots.surface_density_shows`
* `DiscSolver.AnalysisPlots.surface_density_sampling`
* `DiscSolver.AnalysisPlots.sonic_ratio_shows`
* `DiscSolver.AnalysisPlots.v_deriv_shows`
* `DiscSolver.AnalysisPlots.assign_spec`
* `DiscSolver.AnalysisPlots.assignAll_spec`
* `DiscSolver.AnalysisPlots.ratioLoop_names`
* `DiscSolver.AnalysisPlots.printed_ok`
* `DiscSolver.AnalysisPlots.ratio_plot_ok`
* `DiscSolver.AnalysisPlots.ratio_positions`
* `DiscSolver.AnalysisPlots.eleven_ok`
* `DiscSolver.AnalysisPlots.ratio_plot_empty`
* `DiscSolver.AnalysisPlots.ratio_marks_partial`
* `DiscSolver.AnalysisPlots.ratio_colors_collide`
* `DiscSolver.Info.solution_filter_partial`
* `DiscSolver.Info.filter_downward`
* `DiscSolver.Info.filter_literal_end`
* `DiscSolver.Info.filter_dashes`
* `DiscSolver.Info.crosses_report_partial`
* `DiscSolver.Info.crosses_report_above`
* `DiscSolver.Info.sonic_angle_found`
* `DiscSolver.Info.sonic_angle_above`
* `DiscSolver.Info.info_missing`
* `DiscSolver.Info.info_output`
* `DiscSolver.Info.info_groups`
* `DiscSolver.Info.info_sonic_on_scale`
* `DiscSolver.Info.info_solutions`
* `DiscSolver.Info.info_empty_solution`
* `DiscSolver.PySlice.positions_up`
* `DiscSolver.PySlice.positions_down`
* `DiscSolver.PySlice.positions_in_range`
* `DiscSolver.PySlice.index_spec`
* `DiscSolver.PySlice.index_zip`
* `DiscSolver.PySlice.index_tail`
* `DiscSolver.interp_samples`
* `DiscSolver.SonicPoint.sonic_slope_iff`
* `DiscSolver.SonicPoint.sonic_slope_error`
* `DiscSolver.SonicPoint.sonic_slope_partial`
* `DiscSolver.SonicPoint.sonic_slope_returned_partial`
* `DiscSolver.SonicPoint.sonic_slope_wrong`
* `DiscSolver.SonicPoint.sonic_returns`
* `DiscSolver.SonicPoint.sonic_raises`
* `DiscSolver.Jacobian.jacobian_entries`
* `DiscSolver.Jacobian.jacobian_of_solver`
* `DiscSolver.Jacobian.jacobian_accurate`
* `DiscSolver.Jacobian.jacobian_step`
* `DiscSolver.Jacobian.jacobian_exact`
* `DiscSolver.Jacobian.jacobian_at_index`
* `DiscSolver.Jacobian.coef_global`
* `DiscSolver.Jacobian.coef_local`
* `DiscSolver.Jacobian.real_coefs`
* `DiscSolver.Jacobian.real_parts_lose`
* `DiscSolver.Jacobian.coef_plot`
* `DiscSolver.Jacobian.coef_plot_missing`
* `DiscSolver.Jacobian.coef_plot_errors`
* `DiscSolver.Jacobian.log_complex`
* `DiscSolver.Jacobian.eigenvalue_plot`
* `DiscSolver.Jacobian.eigenvector_plot`
* `DiscSolver.Jacobian.norm_plot`
* `DiscSolver.Jacobian.no_step_no_plot`
* `DiscSolver.Stats.max_mach_any`
* `DiscSolver.Stats.max_mach_nan`
* `DiscSolver.Stats.mach_no_vertical_field`
* `DiscSolver.Stats.starts_monotonic`
* `DiscSolver.Stats.ends_low`
* `DiscSolver.Stats.max_jet`
* `DiscSolver.Stats.reported_partial`
* `DiscSolver.Stats.max_B_hides`
* `DiscSolver.Stats.max_B_inverted`
* `DiscSolver.Cli.options_effective`
* `DiscSolver.Cli.accepted_iff`
* `DiscSolver.Cli.usage_error`
* `DiscSolver.Cli.flow_effective`
* `DiscSolver.Cli.ds_plot_effective`
* `DiscSolver.Cli.coef_effective`
* `DiscSolver.Cli.jacobian_effective`
* `DiscSolver.Cli.common_effective`
* `DiscSolver.Cli.vert_ignores_v_θ`
* `DiscSolver.Cli.many_effective`
* `DiscSolver.Cli.compare_effective`
* `DiscSolver.Cli.many_needs_runs`
* `DiscSolver.Cli.parsed_runs`
* `DiscSolver.Cli.conserve_effective`
* `DiscSolver.Cli.diverge_effective`
* `DiscSolver.Cli.compare_ignores_E_r`
* `DiscSolver.CliSolve.soln_usage_error`
* `DiscSolver.CliSolve.soln_unknown_field`
* `DiscSolver.CliSolve.soln_effective`
* `DiscSolver.CliSolve.method_given`
* `DiscSolver.CliSolve.soln_runs`
* `DiscSolver.CliSolve.soln_result`
* `DiscSolver.CliSolve.resoln_usage_error`
* `DiscSolver.CliSolve.resoln_unknown_field`
* `DiscSolver.CliSolve.resoln_effective`
* `DiscSolver.CliSolve.csvrunner_effective`
* `DiscSolver.CliSolve.hdf5runner_effective`
* `DiscSolver.CliSolve.runners_refuse`
* `DiscSolver.CliSolve.csvrunner_ignores`
* `DiscSolver.CliSolve.hdf5runner_ignores`
* `DiscSolver.CliSolve.hdf5runner_names`
* `DiscSolver.ShockRun.continuation_options`
* `DiscSolver.ShockRun.shock_search`
* `DiscSolver.ShockRun.shock_fails`
* `DiscSolver.ShockRun.shock_searches`
* `DiscSolver.ShockRun.shock_solve`
* `DiscSolver.ShockRun.shock_start`
* `DiscSolver.ShockRun.shock_job`
* `DiscSolver.ShockRun.shock_saved`
* `DiscSolver.ShockRun.shock_ends`
* `DiscSolver.ShockRun.shock_never_overwrites`
* `DiscSolver.ShockRun.shock_no_directory`
* `DiscSolver.ShockFiles.continuation_agrees`
* `DiscSolver.Flow.axline_angle`
* `DiscSolver.Flow.flow_ok_iff`
* `DiscSolver.Flow.flow_curves`
* `DiscSolver.Flow.flow_lines`
* `DiscSolver.Flow.flow_max_line`
* `DiscSolver.Flow.flow_plot`
* `DiscSolver.Flow.saved`
* `DiscSolver.Flow.save_never_overwrites`
* `DiscSolver.Flow.save_order`
* `DiscSolver.Flow.save_start_outside`
* `DiscSolver.CliDump.tocsv_writes`
* `DiscSolver.CliDump.tocsv_fails`
* `DiscSolver.CliDump.tocsv_ok_iff`
* `DiscSolver.CliDump.tocfg_writes`
* `DiscSolver.CliDump.tocfg_round_trip`
* `DiscSolver.CliDump.tocfg_failure_empties`
* `DiscSolver.CliDump.tocfg_loses_file`
* `DiscSolver.CliDump.tocfg_not_found`
* `DiscSolver.CliDump.stats_writes`
* `DiscSolver.CliDump.dumpcsv_writes`
* `DiscSolver.CliDump.many_stops`
* `DiscSolver.CliDump.tables_only_grow`
* `DiscSolver.CliDump.tocsv_collects`
* `DiscSolver.CliDump.info_unknown_group`
* `DiscSolver.CliDump.info_prints`
* `DiscSolver.physical_solution`
* `DiscSolver.physical_isothermal`
* `DiscSolver.physical_toroidal_field_zero`
* `DiscSolver.physical_midplane`
* `DiscSolver.physical_eq`
* `DiscSolver.physical_electric`
* `DiscSolver.Hydro.hydro_refused`
* `DiscSolver.Hydro.hydro_run`
* `DiscSolver.Hydro.hydro_call`
* `DiscSolver.Hydro.hydro_records`
* `DiscSolver.Hydro.hydro_problems_partial`
* `DiscSolver.Hydro.hydro_fixed_rows`
* `DiscSolver.Hydro.hydro_conditions_kept`
* `DiscSolver.Hydro.hydro_conditions_overwritten`
* `DiscSolver.Hydro.hydro_conditions_not_kept`
* `DiscSolver.Hydro.hydro_rejection_unrecorded`
* `DiscSolver.Hydro.hydro_solver_run`
* `DiscSolver.Hydro.hydro_scale`
* `DiscSolver.Hydro.hydro_scale_matters`
* `DiscSolver.ModHydro.mod_refused`
* `DiscSolver.ModHydro.mod_run`
* `DiscSolver.ModHydro.mod_call`
* `DiscSolver.ModHydro.mod_records`
* `DiscSolver.ModHydro.mod_accepted_length`
* `DiscSolver.ModHydro.mod_problems`
* `DiscSolver.ModHydro.mod_rows_as_calls`
* `DiscSolver.ModHydro.mod_row_balanced`
* `DiscSolver.ModHydro.mod_solver_run`
* `DiscSolver.ModHydro.mod_roots_not_fixed`
* `DiscSolver.ConfDoc.conf_doc_meaning`
* `DiscSolver.ConfDoc.conf_doc_error`
* `DiscSolver.ConfDoc.conf_doc_same`
* `DiscSolver.ConfDoc.conf_doc_no_sections`
* `DiscSolver.ConfDoc.conf_doc_circle`
* `DiscSolver.ConfDoc.conf_refused_junk`
* `DiscSolver.ConfDoc.conf_refused_headless`
* `DiscSolver.ConfDoc.conf_refused_twice`
* `DiscSolver.ConfDoc.conf_refused_section`
* `DiscSolver.ConfDoc.before_set_template`
* `DiscSolver.ConfDoc.before_set_stray`
* `DiscSolver.ConfDoc.before_set_not_enough`
* `DiscSolver.EndToEnd.soln_end_to_end`
* `DiscSolver.EndToEnd.soln_first_row`
* `DiscSolver.EndToEnd.soln_succeeds`
* `DiscSolver.EndToEnd.asked_unique`
* `DiscSolver.EndToEnd.history_end_to_end`
* `DiscSolver.EndToEnd.history_same`
* `DiscSolver.EndToEnd.resoln_repeats`
* `DiscSolver.EndToEnd.resoln_default_name`
* `DiscSolver.EndToEnd.resoln_no_such`
* `DiscSolver.TaylorSpace.scan_plots`
* `DiscSolver.TaylorSpace.disc_regular`
* `DiscSolver.TaylorSpace.disc_second`
* `DiscSolver.TaylorSpace.scan_out_of_limits`
* `DiscSolver.TaylorSpace.scan_empty`
* `DiscSolver.StepRun.search_end_to_end`
* `DiscSolver.StepRun.search_status`
* `DiscSolver.StepRun.search_returns`
* `DiscSolver.StepRun.accepted_iff`
* `DiscSolver.StepRun.moves_exact`
* `DiscSolver.solution_internal`
* `DiscSolver.witJ_rows`
* `DiscSolver.Hydro.hydro_faraday_deviation`
* `DiscSolver.Hydro.hydro_faraday_not_kept`
* `DiscSolver.ModHydro.mod_hydro_E_r_faraday`
* `DiscSolver.ModHydro.mod_hydro_faraday_deviation`
* `DiscSolver.ModHydro.mod_hydro_faraday_not_kept`
* `DiscSolver.CrosserRun.crosser_end_to_end`
* `DiscSolver.CrosserRun.crosser_gives_up`
* `DiscSolver.CrosserRun.crosser_three`
* `DiscSolver.CrosserRun.witCross_returns`
* `DiscSolver.CrosserRun.witCross_lost`
* `DiscSolver.MemRun.csv_single_row`
* `DiscSolver.MemRun.csv_step_row`
* `DiscSolver.MemRun.csv_step_first`
* `DiscSolver.MemRun.csv_crosser_row_partial`
* `DiscSolver.MemRun.csv_output_partial`
* `DiscSolver.MemRun.csv_row_without_disc`
* `DiscSolver.MemRun.memory_gives_up`
* `DiscSolver.MemRun.wit_row`
* `DiscSolver.MemRun.wit_output`
* `DiscSolver.McmcRun.mcmc_end_to_end_partial`
* `DiscSolver.McmcRun.mcmc_returns`
* `DiscSolver.McmcRun.status_zero_without_solution`
* `DiscSolver.McmcRun.wit_found`
* `DiscSolver.HydroMethods.hydrostatic_end_to_end`
* `DiscSolver.HydroMethods.hydrostatic_first_row`
* `DiscSolver.HydroMethods.hydrostatic_stored_derivatives`
* `DiscSolver.HydroMethods.hydrostatic_returns`
* `DiscSolver.HydroMethods.mod_hydro_end_to_end`
* `DiscSolver.HydroMethods.mod_hydro_rows_balanced`
* `DiscSolver.HydroMethods.mod_hydro_returns`
* `DiscSolver.Hdf5Run.table_rows`
* `DiscSolver.Hdf5Run.row_same_as_soln`
* `DiscSolver.Hdf5Run.methods_same_as_soln`
* `DiscSolver.Hdf5Run.methods_blind`
* `DiscSolver.SonicRootRun.sonic_root_end_to_end_partial`
* `DiscSolver.SonicRootRun.sonic_root_outcome`
* `DiscSolver.SonicRootRun.witS_returns`
* `DiscSolver.SonicRootRun.witS_raises`
* `DiscSolver.Sessions.session_good`
* `DiscSolver.Sessions.solved_again`
* `DiscSolver.Sessions.solved_with`
* `DiscSolver.Sessions.unfinished_not_solved`
* `DiscSolver.Sessions.resoln_same_as_soln`
* `DiscSolver.Sessions.resoln_goes_on`
* `DiscSolver.Saving.session_ready`
* `DiscSolver.Saving.saved_partial`
* `DiscSolver.Saving.soln_complete`
* `DiscSolver.Saving.resoln_complete`
* `DiscSolver.Saving.table_complete`
* `DiscSolver.Saving.shock_complete`
* `DiscSolver.Saving.unreadable_not_saved`
* `DiscSolver.Saving.incomplete_not_saved`
* `DiscSolver.Saving.unfinished_not_loaded`
* `DiscSolver.ShockFiles.slice_unused`
* `DiscSolver.ShockFiles.continuation_ok`
* `DiscSolver.ShockFiles.finish_eq`
* `DiscSolver.ShockFiles.pool_progress`
* `DiscSolver.ShockFiles.shock_runs`
* `DiscSolver.ShockFiles.shock_all`
* `DiscSolver.Sessions.continuation_lost`
* `DiscSolver.Approx.gradient_quadratic`
* `DiscSolver.Approx.gradient_ends`
* `DiscSolver.Approx.approx_rows`
* `DiscSolver.Approx.stats_solenoid`
* `DiscSolver.Approx.stats_continuity`
* `DiscSolver.Approx.stats_radial`
* `DiscSolver.Approx.stats_azimuthal`
* `DiscSolver.Approx.stats_polar`
* `DiscSolver.Approx.stats_E_φ`
* `DiscSolver.Approx.reported_near`
* `DiscSolver.Approx.one_angle`
* `DiscSolver.Approx.left_out`
* `DiscSolver.Approx.internal_used`
* `DiscSolver.Approx.columns`
