
## 6. Axioms of each theorem

Generated by tools/axioms.py from `#print axioms`.

* **Quot.sound** (1 theorems): C56_ok

* **none** (5 theorems): C01_position_name_renames_row, C21_only_strain_changes, C26_zero_rate_changes_nothing, C61_which_fields_survive, C74_carriage_return_is_lost

* **propext** (1 theorems): C56_zero_step

* **propext, Classical.choice, Quot.sound** (583 theorems): C01_csv_rows_are_the_log, C01_logger_last_write_wins, C02_columns_aligned, C03_fresh_log_is_a_history, C03_fresh_runner, C03_history_invisible, C03_reuse_can_fail, C03_reuse_keeps_old_rows, C03_run_extends_the_log, C04_columns, C04_run_writes, C04_write_never_fails, C05_bound, C05_bound_attained, C05_budget_irrelevant, C05_terminates, C06_position_time, C06_run_shape, C06_strictly_increasing, C07_crystals_increase, C07_crystals_increase_run, C07_grow_or_stop, C08_crystallisation_tied_to_cooling, C09_core_cools, C100_column, C100_cut_file, C100_cut_result, C100_wrong_number, C101_cut_results_are_safe, C101_killed_run, C102_cut_configuration, C102_cut_dump, C102_cut_written_file, C102_nothing_happens, C103_curves_of_the_run, C103_failures, C103_figure, C103_main_plot, C103_main_run, C103_not_an_object, C103_silent_run, C104_columns_of_a_run, C104_labels, C104_labels_collide, C104_mauna_ulu_figure, C104_own_result, C104_result_of_a_log, C104_venus_curves_of_a_text, C104_venus_figure, C104_venus_figure_of_a_run, C105_radiance_is_not_proportional, C105_shown, C105_wider_channel, C106_heat_account, C106_lifetime, C106_mass_account, C106_mass_lifetime, C106_radiating_flow, C106_run_out_bound, C107_every_schedule, C107_everyone_ends, C107_order_does_not_matter, C107_other_files, C107_run_touches, C107_separate_files, C107_sweep_touches, C108_two_sweeps_one_folder, C109_results_after_interruption, C109_run_again, C109_run_interrupted, C109_sweep_again, C109_sweep_interrupted, C10_crystal_bound, C10_crystal_budget, C110_files, C110_many_times, C110_outcomes, C111_caught_empty, C111_saved_during_a_run, C111_saved_during_a_sweep, C111_the_save_is_complete, C112_only_where_floats_fault, C112_program, C112_run, C112_run_exact, C112_simulation, C112_step, C113_division, C113_melts, C113_run_ends, C113_velocity_is_a_number, C113_zero_rate, C114_everything_writable, C114_moment_of_failure, C114_run, C114_slash, C114_sweep_result, C114_sweep_working, C115_factory, C115_refused, C115_run, C116_flat_samples, C116_inserted_sample, C116_only_visited_positions, C116_same_slopes, C116_terrain_ahead, C117_depth_search, C117_loop, C117_never_raises, C117_packed_raises, C117_run_completes, C117_sensible_rates, C117_sensible_vesicles, C117_shipped_template, C117_single_step, C117_template_completes, C117_template_sensible, C118_colder, C118_never_warms, C118_shorter, C119_first_row, C119_loop, C119_run, C119_simulation, C119_template, C11_constant_effusion_rate, C11_volume_conservation, C120_alone, C120_both_can_be_wrong, C120_both_can_fail, C120_can_lose_the_file, C120_every_accepted_row, C120_mixed, C120_mixed_runs, C120_no_file, C120_one_after_the_other, C120_private, C120_raises, C120_rows_of_all, C120_rows_since_the_last_constructor, C120_rows_stay, C120_same_configuration, C120_undisturbed, C121_channels, C121_farther, C121_faster, C121_fluxes, C121_hotter, C121_larger_rate, C121_per_kelvin, C121_run, C121_sensible, C121_small_step, C121_thinner, C122_colder, C122_loses_more, C122_run, C122_same_lava, C122_sensible, C122_shorter, C122_slower, C123_lines, C123_run_outs, C123_run_outs_texts, C123_sweep, C123_sweep_texts, C123_two_rates, C123_two_texts, C124_complete_rows, C124_loop, C124_post_processing, C124_run, C125_rain, C125_small_change, C126_kinder_is_easier, C126_run, C126_search, C126_stuck_vent, C127_config, C127_loop, C127_run, C128_farther, C128_faster, C128_hotter, C128_run, C128_sensible, C128_small_step, C129_names_differ, C129_one_after_the_other, C129_same_text, C12_attribute_error, C12_mass_conservation, C12_zero_rate_has_no_flux, C130_moves_below_yield, C130_next_step_moves, C130_stops_early, C130_velocity_error, C131_rounding_error, C131_thousand_steps, C132_thousand_steps, C132_total_error, C133_channel, C133_one_phase, C133_order, C133_velocity, C134_bubbles, C134_melt, C134_packing, C134_phan_thien_pham, C134_run, C134_sensible, C134_which_melts, C134_yield, C135_gravity, C135_profiles, C135_run, C135_sensible, C136_run, C136_sensible, C136_together, C137_preparation, C137_run, C137_text, C138_rate, C139_preparation, C139_run, C139_sweep, C139_text, C13_accepted_reason, C13_rejected_reason, C13_solidus_is_configured, C13_step_ends_iff, C13_still_lava_ends_the_run, C13_why_a_run_stopped, C140_cover, C140_crystallisation, C140_even_vesicles, C140_models, C140_text, C140_vesicles, C141_second_regime, C141_simulation, C14_rejected_step_moves_nothing, C15_energy_balance, C16_accepted_iff_heat_loss, C17_velocity_is_bingham, C17_zero_exactly_at_yield, C18_velocity_monotone, C19_unbounded, C19_witness, C19_yield_above_stress_still_moves, C20_never_fails_to_converge, C20_one_pass_not_enough, C20_two_passes_suffice, C21_strain_of_velocity, C22_strain_dependent_not_reproducible, C22_strain_free_reproducible, C24_next_step_moves, C25_first_sufficient_depth, C25_no_error, C25_smallest_sufficient_depth, C26_first_step_sets_rate, C27_flux_monotone_in_depth, C27_search_accepts_immobile_depth, C27_threshold, C28_melt_decreasing, C28_melt_laws, C28_melt_positive, C29_at_least_one, C29_increasing_in_crystals, C29_relative_viscosity_laws, C30_accepted_fails_exactly_at_packing, C30_bll_fails_exactly_at_phimax, C30_check_is_packing, C30_costa_accepts_everything, C30_er_check_is_exact, C30_mader_beyond_packing, C30_mader_check, C30_mader_needs_strain, C30_ptp2_fails_on_pure_melt, C31_bubble_laws, C31_direction, C31_limits, C31_mader_switch, C32_bll_index, C32_bll_infinite_iff, C32_bll_law, C32_bll_no_valueError, C33_bulk_is_product, C33_bulk_positive, C34_yield_grows, C34_yield_laws, C34_yield_nonneg, C35_basal_stress_law, C35_basal_stress_positive_linear, C36_same_numbers_as_velocity, C36_yield_check, C37_bll_yield_ignores_vesicles, C37_bll_yield_is_wrong, C37_vesicles_shared, C38_density, C38_nonneg_except_variable_bimodal, C38_variable_bimodal_goes_negative, C38_vesicle_laws, C39_api_is_fraction, C39_basic_is_fraction, C39_bimodal_switch, C39_cover_law, C40_hon_decreasing, C40_hon_error, C40_hon_law, C40_other_models, C41_basic_law_any_lava, C41_nonneg, C41_radiative_flux_law, C42_convective_flux, C42_uniform_surface_flux, C42_uniform_surface_is_cooled, C43_conductive_error, C43_conductive_flux, C43_sign_and_scaling, C44_linear_in_width, C44_rain_is_constant, C45_budget_is_sum, C45_log_agrees, C45_snyder_overwrites, C45_standard_lists_keep_columns, C45_strain_dependent_log_differs, C45_sublists_keep_columns, C46_step_with_viscous_heating_is_colder, C46_viscous_heating_is_a_loss, C47_linear_range, C47_logged_emissivity, C47_mix_between, C47_quadratic_in_range, C48_errors, C48_read_slope, C48_rows_kept, C49_between_samples, C49_constant_fixed, C49_even_uses_one_more, C49_negative_points, C49_running_mean, C49_small_window_identity, C50_at_samples, C50_between_neighbours, C50_extrapolates, C50_inside_positive, C50_interpolation, C50_negative_beyond_profile, C51_success_means_documented, C51_unknown_is_NameError, C51_unknown_refused, C52_columns_kept, C52_exactly_the_requested_fluxes, C52_logged_budget_adds_up, C53_field_uses_fixed_file, C53_melts_divides_by_zero, C53_melts_has_no_table, C53_melts_never_advances, C53_melts_run_is_empty, C54_in_configuration, C54_mass_conservation, C54_missing_is_off, C55_missing_entry_refused, C55_models_come_from_the_configuration, C55_required_entries, C55_run_missing_entry, C55_run_refuses_without_effect, C55_run_starts_from_the_configuration, C55_sufficient_entries, C56_down, C56_empty, C56_exact, C56_overshoot, C56_rates, C57_get_file_name_results, C57_names_distinct, C57_sweep_is_fresh_runs, C57_sweep_names, C57_sweep_run_file, C58_only_the_working_copy, C58_same_folder, C58_template_overwritten, C58_working_copy, C59_largest_position_is_last, C59_line_shows, C59_overshoot, C59_run_out_bounds, C59_run_out_line, C59_run_out_of_a_run, C60_one_row_fails, C60_partial_row_fails, C60_post_processing_works_iff, C60_run_can_be_post_processed, C61_colliding_names, C61_edit_one_field, C61_field_after_save, C61_mass_conservation_kept, C61_no_such_field, C61_smoothing_example, C61_smoothing_switched_off, C61_unchanged_iff, C61_unedited, C62_centred_difference, C62_no_table, C62_rate_nonneg, C62_segment_slope, C62_table_accepted, C63_positions, C63_rows, C63_rows_are_final, C63_rows_are_final_end, C63_rows_cases, C64_integrated, C64_table, C65_dotted_section_loses_entry, C65_new_entry, C65_repeated_section_gets_entry_too, C65_save_fails, C65_text_in_the_way, C66_readings_differ, C66_same_as_runner, C66_text_true_differs, C67_curves, C67_failures, C67_files, C67_run_can_be_drawn, C67_run_failures, C67_source_is_not_drawn, C68_empty_sweep, C68_one_bad_run, C68_silent_run, C68_sweep_output, C69_distance_law, C69_distance_table, C69_temperature_law, C69_temperature_table, C70_euler_table, C71_budget_columns, C71_column_of_a_flux, C71_flux_columns, C72_crust_is_darker, C72_hotter_is_brighter, C72_negative_radiance, C72_planck_increasing, C72_planck_pos, C72_radiance_column, C72_radiance_pos, C72_shares, C73_crust_profile, C73_profile_reads_back, C73_same_samples, C73_slope_failures, C73_terrain_failures, C73_trailing_blank_line, C74_columns, C74_result_file, C75_get_run_outs, C75_no_lines_no_figure, C75_run_out_figure, C75_run_out_table, C76_crust_file, C76_field_crust, C76_field_without_profile, C76_melts_file, C77_failed_figures_keep_the_result, C77_failed_run, C77_file_name, C77_fractional_step, C77_missing_path, C77_not_numeric, C77_single_shows_the_run, C77_sweep_of_whole_numbers, C78_new_json, C78_no_flow_id, C78_ragged_lines, C78_result_named_after_vent, C78_vent_list, C79_indented, C79_line_endings, C79_load_is_the_grammar, C79_loaded_keys_distinct, C79_other_texts_refused, C79_rewrite_succeeds, C79_rewritten_file, C79_round_trip, C79_unambiguous, C79_written_in_ascii, C79_written_text, C80_codec_is_python, C80_saved_file, C80_second_save_changes_nothing, C80_shown_text, C80_what_becomes_of_the_others, C80_which_fields_are_kept, C81_run_on_texts, C82_bad_configuration, C82_disk_grows_by_one_file, C82_inputs_determine_result, C82_name_of_the_result, C82_rerun, C83_bound, C83_every_run_ends, C84_heat_positive, C84_monotone, C84_no_warming, C84_velocity_converges, C84_velocity_positive, C84_velocity_two_passes, C85_energy, C85_mass, C85_relative_error, C85_rows_agree, C85_volume, C86_absorbed_step, C86_position_drift, C86_row_per_step, C86_step_is_felt, C87_costa_bounded, C87_costa_increasing, C87_costa_laws, C87_costa_pure_melt, C87_costa_reads_crystals_only, C87_costa_single_none, C87_costa_total, C88_mader_increasing, C88_mader_law, C88_mader_newtonian, C88_mader_thinner_than_melt, C88_mader_thins, C89_other_files_untouched, C89_results_on_disk, C89_sweep_on_texts, C89_template_kept, C90_complete_result_is_reported, C90_get_run_outs, C90_only_if, C90_run_out_of_a_run, C90_run_out_of_a_text, C90_stops_at_first_failure, C91_complete_result_is_drawn, C91_curves_of_a_text, C91_figure_of_a_run, C91_label, C91_label_of_a_result, C91_labels_distinct, C91_plot_all_results, C91_result_of_a_log, C92_complete_sweep, C92_results_survive, C92_sweep_completes, C93_columns_of_a_run, C93_curves_of_a_text, C93_field_figure, C93_figure_of_a_run, C93_label_of_a_result, C93_labels_collide, C93_labels_distinct, C93_result_of_a_log, C94_same_preparation, C94_unused_entries_are_irrelevant, C94_unused_entries_on_texts, C95_mass_flux_of_a_run, C95_switch_without_effect, C96_max_channel_length, C96_other_endings, C96_result_file_is_a_beginning, C96_shorter_channel, C97_configured_depth, C97_deeper_channel, C97_depth_has_no_effect, C97_larger_rate, C97_program_depths, C97_same_channel_depth, C97_same_depth, C97_without_rate, C97_zero_rate, C98_origin_has_no_effect, C98_variable_vesicles_see_the_origin, C99_first_order, C99_refinement_converges, C99_two_steps

* **propext, Quot.sound** (12 theorems): C22_which_models_are_strain_independent, C23_cover_frame, C23_flux_frame, C23_heat_budget_frame, C73_crust_failures, C73_plot_failures, C73_profile_lines, C73_short_line_is_fatal, C74_any_text_is_readable, C74_csv_reads_back, C78_new_json_ok, C87_costa_single_class

