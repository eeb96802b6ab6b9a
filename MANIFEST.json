{
 "claims": [
  {
   "property": "C01",
   "status": "proved",
   "theorems": [
    "PyFlowGo.C01_logger_last_write_wins",
    "PyFlowGo.C01_csv_rows_are_the_log",
    "PyFlowGo.C01_position_name_renames_row"
   ],
   "note": ""
  },
  {
   "property": "C02",
   "status": "proved",
   "theorems": [
    "PyFlowGo.C02_columns_aligned"
   ],
   "note": ""
  },
  {
   "property": "C03",
   "status": "proved",
   "theorems": [
    "PyFlowGo.C03_reuse_can_fail",
    "PyFlowGo.C03_run_extends_the_log",
    "PyFlowGo.C03_fresh_log_is_a_history",
    "PyFlowGo.C03_fresh_runner",
    "PyFlowGo.C03_history_invisible",
    "PyFlowGo.C03_reuse_keeps_old_rows"
   ],
   "note": ""
  },
  {
   "property": "C04",
   "status": "proved",
   "theorems": [
    "PyFlowGo.C04_columns",
    "PyFlowGo.C04_write_never_fails",
    "PyFlowGo.C04_run_writes"
   ],
   "note": ""
  },
  {
   "property": "C05",
   "status": "proved",
   "theorems": [
    "PyFlowGo.C05_terminates",
    "PyFlowGo.C05_bound",
    "PyFlowGo.C05_budget_irrelevant",
    "PyFlowGo.C05_bound_attained"
   ],
   "note": ""
  },
  {
   "property": "C06",
   "status": "proved",
   "theorems": [
    "PyFlowGo.C06_position_time",
    "PyFlowGo.C06_strictly_increasing",
    "PyFlowGo.C06_run_shape"
   ],
   "note": ""
  },
  {
   "property": "C07",
   "status": "proved",
   "theorems": [
    "PyFlowGo.C07_crystals_increase",
    "PyFlowGo.C07_crystals_increase_run",
    "PyFlowGo.C07_grow_or_stop"
   ],
   "note": ""
  },
  {
   "property": "C08",
   "status": "proved",
   "theorems": [
    "PyFlowGo.C08_crystallisation_tied_to_cooling"
   ],
   "note": ""
  },
  {
   "property": "C09",
   "status": "proved",
   "theorems": [
    "PyFlowGo.C09_core_cools"
   ],
   "note": ""
  },
  {
   "property": "C10",
   "status": "proved",
   "theorems": [
    "PyFlowGo.C10_crystal_budget",
    "PyFlowGo.C10_crystal_bound"
   ],
   "note": ""
  },
  {
   "property": "C11",
   "status": "proved",
   "theorems": [
    "PyFlowGo.C11_volume_conservation",
    "PyFlowGo.C11_constant_effusion_rate"
   ],
   "note": ""
  },
  {
   "property": "C12",
   "status": "proved",
   "theorems": [
    "PyFlowGo.C12_mass_conservation",
    "PyFlowGo.C12_attribute_error",
    "PyFlowGo.C12_zero_rate_has_no_flux"
   ],
   "note": ""
  },
  {
   "property": "C13",
   "status": "proved",
   "theorems": [
    "PyFlowGo.C13_rejected_reason",
    "PyFlowGo.C13_accepted_reason",
    "PyFlowGo.C13_why_a_run_stopped",
    "PyFlowGo.C13_solidus_is_configured",
    "PyFlowGo.C13_step_ends_iff",
    "PyFlowGo.C13_still_lava_ends_the_run"
   ],
   "note": ""
  },
  {
   "property": "C14",
   "status": "proved",
   "theorems": [
    "PyFlowGo.C14_rejected_step_moves_nothing"
   ],
   "note": ""
  },
  {
   "property": "C15",
   "status": "proved",
   "theorems": [
    "PyFlowGo.C15_energy_balance"
   ],
   "note": ""
  },
  {
   "property": "C16",
   "status": "proved",
   "theorems": [
    "PyFlowGo.C16_accepted_iff_heat_loss"
   ],
   "note": ""
  },
  {
   "property": "C17",
   "status": "proved",
   "theorems": [
    "PyFlowGo.C17_velocity_is_bingham",
    "PyFlowGo.C17_zero_exactly_at_yield"
   ],
   "note": ""
  },
  {
   "property": "C18",
   "status": "proved",
   "theorems": [
    "PyFlowGo.C18_velocity_monotone"
   ],
   "note": ""
  },
  {
   "property": "C19",
   "status": "proved",
   "theorems": [
    "PyFlowGo.C19_yield_above_stress_still_moves",
    "PyFlowGo.C19_unbounded",
    "PyFlowGo.C19_witness"
   ],
   "note": ""
  },
  {
   "property": "C20",
   "status": "proved",
   "theorems": [
    "PyFlowGo.C20_never_fails_to_converge",
    "PyFlowGo.C20_two_passes_suffice",
    "PyFlowGo.C20_one_pass_not_enough"
   ],
   "note": ""
  },
  {
   "property": "C21",
   "status": "proved",
   "theorems": [
    "PyFlowGo.C21_only_strain_changes",
    "PyFlowGo.C21_strain_of_velocity"
   ],
   "note": ""
  },
  {
   "property": "C22",
   "status": "proved",
   "theorems": [
    "PyFlowGo.C22_strain_free_reproducible",
    "PyFlowGo.C22_which_models_are_strain_independent",
    "PyFlowGo.C22_strain_dependent_not_reproducible"
   ],
   "note": "Positive half for every strain-independent rheology, classification of which relative-viscosity/bubble models are strain independent, and a witness (mader) that the velocity loop does not converge for the others."
  },
  {
   "property": "C23",
   "status": "proved",
   "theorems": [
    "PyFlowGo.C23_flux_frame",
    "PyFlowGo.C23_cover_frame",
    "PyFlowGo.C23_heat_budget_frame"
   ],
   "note": ""
  },
  {
   "property": "C24",
   "status": "proved",
   "theorems": [
    "PyFlowGo.C24_next_step_moves"
   ],
   "note": ""
  },
  {
   "property": "C25",
   "status": "proved",
   "theorems": [
    "PyFlowGo.C25_first_sufficient_depth",
    "PyFlowGo.C25_smallest_sufficient_depth",
    "PyFlowGo.C25_no_error"
   ],
   "note": ""
  },
  {
   "property": "C26",
   "status": "proved",
   "theorems": [
    "PyFlowGo.C26_zero_rate_changes_nothing",
    "PyFlowGo.C26_first_step_sets_rate"
   ],
   "note": ""
  },
  {
   "property": "C27",
   "status": "proved",
   "theorems": [
    "PyFlowGo.C27_flux_monotone_in_depth",
    "PyFlowGo.C27_threshold",
    "PyFlowGo.C27_search_accepts_immobile_depth"
   ],
   "note": "The flux is monotone only above the yield depth; witness that the search accepts an immobile depth."
  },
  {
   "property": "C28",
   "status": "proved",
   "theorems": [
    "PyFlowGo.C28_melt_laws",
    "PyFlowGo.C28_melt_positive",
    "PyFlowGo.C28_melt_decreasing"
   ],
   "note": ""
  },
  {
   "property": "C29",
   "status": "proved",
   "theorems": [
    "PyFlowGo.C29_relative_viscosity_laws",
    "PyFlowGo.C29_at_least_one",
    "PyFlowGo.C29_increasing_in_crystals"
   ],
   "note": ""
  },
  {
   "property": "C30",
   "status": "proved",
   "theorems": [
    "PyFlowGo.C30_er_check_is_exact",
    "PyFlowGo.C30_check_is_packing",
    "PyFlowGo.C30_accepted_fails_exactly_at_packing",
    "PyFlowGo.C30_ptp2_fails_on_pure_melt",
    "PyFlowGo.C30_mader_check",
    "PyFlowGo.C30_mader_beyond_packing",
    "PyFlowGo.C30_mader_needs_strain",
    "PyFlowGo.C30_bll_fails_exactly_at_phimax",
    "PyFlowGo.C30_costa_accepts_everything"
   ],
   "note": "Per-model: exact where the check matches the law, counterexamples where it does not."
  },
  {
   "property": "C31",
   "status": "proved",
   "theorems": [
    "PyFlowGo.C31_bubble_laws",
    "PyFlowGo.C31_direction",
    "PyFlowGo.C31_mader_switch",
    "PyFlowGo.C31_limits"
   ],
   "note": ""
  },
  {
   "property": "C32",
   "status": "proved",
   "theorems": [
    "PyFlowGo.C32_bll_law",
    "PyFlowGo.C32_bll_index",
    "PyFlowGo.C32_bll_infinite_iff",
    "PyFlowGo.C32_bll_no_valueError"
   ],
   "note": ""
  },
  {
   "property": "C33",
   "status": "proved",
   "theorems": [
    "PyFlowGo.C33_bulk_is_product",
    "PyFlowGo.C33_bulk_positive"
   ],
   "note": ""
  },
  {
   "property": "C34",
   "status": "proved",
   "theorems": [
    "PyFlowGo.C34_yield_laws",
    "PyFlowGo.C34_yield_nonneg",
    "PyFlowGo.C34_yield_grows"
   ],
   "note": ""
  },
  {
   "property": "C35",
   "status": "proved",
   "theorems": [
    "PyFlowGo.C35_basal_stress_law",
    "PyFlowGo.C35_basal_stress_positive_linear"
   ],
   "note": ""
  },
  {
   "property": "C36",
   "status": "proved",
   "theorems": [
    "PyFlowGo.C36_yield_check",
    "PyFlowGo.C36_same_numbers_as_velocity"
   ],
   "note": ""
  },
  {
   "property": "C37",
   "status": "proved",
   "theorems": [
    "PyFlowGo.C37_vesicles_shared",
    "PyFlowGo.C37_bll_yield_ignores_vesicles",
    "PyFlowGo.C37_bll_yield_is_wrong"
   ],
   "note": ""
  },
  {
   "property": "C38",
   "status": "proved",
   "theorems": [
    "PyFlowGo.C38_vesicle_laws",
    "PyFlowGo.C38_nonneg_except_variable_bimodal",
    "PyFlowGo.C38_variable_bimodal_goes_negative",
    "PyFlowGo.C38_density"
   ],
   "note": ""
  },
  {
   "property": "C39",
   "status": "proved",
   "theorems": [
    "PyFlowGo.C39_cover_law",
    "PyFlowGo.C39_basic_is_fraction",
    "PyFlowGo.C39_bimodal_switch",
    "PyFlowGo.C39_api_is_fraction"
   ],
   "note": ""
  },
  {
   "property": "C40",
   "status": "proved",
   "theorems": [
    "PyFlowGo.C40_hon_law",
    "PyFlowGo.C40_hon_error",
    "PyFlowGo.C40_hon_decreasing",
    "PyFlowGo.C40_other_models"
   ],
   "note": ""
  },
  {
   "property": "C41",
   "status": "proved",
   "theorems": [
    "PyFlowGo.C41_radiative_flux_law",
    "PyFlowGo.C41_basic_law_any_lava",
    "PyFlowGo.C41_nonneg"
   ],
   "note": "Law and definedness for every strain-independent lava; the basic class for every lava. The multi-evaluation classes of strain-dependent lavas use several covers and are covered only by C44."
  },
  {
   "property": "C42",
   "status": "proved",
   "theorems": [
    "PyFlowGo.C42_convective_flux",
    "PyFlowGo.C42_uniform_surface_is_cooled",
    "PyFlowGo.C42_uniform_surface_flux"
   ],
   "note": "The expected bound is false; proved what holds and that a uniform surface is cooled."
  },
  {
   "property": "C43",
   "status": "proved",
   "theorems": [
    "PyFlowGo.C43_conductive_flux",
    "PyFlowGo.C43_conductive_error",
    "PyFlowGo.C43_sign_and_scaling"
   ],
   "note": ""
  },
  {
   "property": "C44",
   "status": "proved",
   "theorems": [
    "PyFlowGo.C44_linear_in_width",
    "PyFlowGo.C44_rain_is_constant"
   ],
   "note": ""
  },
  {
   "property": "C45",
   "status": "proved",
   "theorems": [
    "PyFlowGo.C45_budget_is_sum",
    "PyFlowGo.C45_log_agrees",
    "PyFlowGo.C45_standard_lists_keep_columns",
    "PyFlowGo.C45_sublists_keep_columns",
    "PyFlowGo.C45_snyder_overwrites",
    "PyFlowGo.C45_strain_dependent_log_differs"
   ],
   "note": "Sum and log agreement for strain-independent lavas; witnesses for strain-dependent lavas and for column overwriting."
  },
  {
   "property": "C46",
   "status": "proved",
   "theorems": [
    "PyFlowGo.C46_viscous_heating_is_a_loss",
    "PyFlowGo.C46_step_with_viscous_heating_is_colder"
   ],
   "note": "The expectation is false in the code: viscous heating is added as a loss; proved at flux, budget and step level."
  },
  {
   "property": "C47",
   "status": "proved",
   "theorems": [
    "PyFlowGo.C47_mix_between",
    "PyFlowGo.C47_quadratic_in_range",
    "PyFlowGo.C47_linear_range",
    "PyFlowGo.C47_logged_emissivity"
   ],
   "note": ""
  },
  {
   "property": "C48",
   "status": "proved",
   "theorems": [
    "PyFlowGo.C48_read_slope",
    "PyFlowGo.C48_rows_kept",
    "PyFlowGo.C48_errors"
   ],
   "note": ""
  },
  {
   "property": "C49",
   "status": "proved",
   "theorems": [
    "PyFlowGo.C49_running_mean",
    "PyFlowGo.C49_even_uses_one_more",
    "PyFlowGo.C49_between_samples",
    "PyFlowGo.C49_small_window_identity",
    "PyFlowGo.C49_constant_fixed",
    "PyFlowGo.C49_negative_points"
   ],
   "note": ""
  },
  {
   "property": "C50",
   "status": "proved",
   "theorems": [
    "PyFlowGo.C50_interpolation",
    "PyFlowGo.C50_at_samples",
    "PyFlowGo.C50_between_neighbours",
    "PyFlowGo.C50_extrapolates",
    "PyFlowGo.C50_inside_positive",
    "PyFlowGo.C50_negative_beyond_profile"
   ],
   "note": ""
  },
  {
   "property": "C51",
   "status": "proved",
   "theorems": [
    "PyFlowGo.C51_success_means_documented",
    "PyFlowGo.C51_unknown_refused",
    "PyFlowGo.C51_unknown_is_NameError"
   ],
   "note": ""
  },
  {
   "property": "C52",
   "status": "proved",
   "theorems": [
    "PyFlowGo.C52_exactly_the_requested_fluxes",
    "PyFlowGo.C52_columns_kept",
    "PyFlowGo.C52_logged_budget_adds_up"
   ],
   "note": ""
  },
  {
   "property": "C53",
   "status": "proved",
   "theorems": [
    "PyFlowGo.C53_melts_has_no_table",
    "PyFlowGo.C53_field_uses_fixed_file",
    "PyFlowGo.C53_melts_never_advances",
    "PyFlowGo.C53_melts_run_is_empty",
    "PyFlowGo.C53_melts_divides_by_zero"
   ],
   "note": ""
  },
  {
   "property": "C54",
   "status": "proved",
   "theorems": [
    "PyFlowGo.C54_mass_conservation",
    "PyFlowGo.C54_in_configuration",
    "PyFlowGo.C54_missing_is_off"
   ],
   "note": ""
  },
  {
   "property": "C55",
   "status": "proved",
   "theorems": [
    "PyFlowGo.C55_models_come_from_the_configuration",
    "PyFlowGo.C55_required_entries",
    "PyFlowGo.C55_missing_entry_refused",
    "PyFlowGo.C55_sufficient_entries",
    "PyFlowGo.C55_run_starts_from_the_configuration",
    "PyFlowGo.C55_run_refuses_without_effect",
    "PyFlowGo.C55_run_missing_entry"
   ],
   "note": ""
  },
  {
   "property": "C56",
   "status": "proved",
   "theorems": [
    "PyFlowGo.C56_zero_step",
    "PyFlowGo.C56_ok",
    "PyFlowGo.C56_rates",
    "PyFlowGo.C56_exact",
    "PyFlowGo.C56_overshoot",
    "PyFlowGo.C56_empty",
    "PyFlowGo.C56_down"
   ],
   "note": "Exact when the step divides the range; otherwise the sweep overshoots by less than one step (proved); descending and empty sweeps characterised."
  },
  {
   "property": "C57",
   "status": "proved",
   "theorems": [
    "PyFlowGo.C57_names_distinct",
    "PyFlowGo.C57_get_file_name_results",
    "PyFlowGo.C57_sweep_is_fresh_runs",
    "PyFlowGo.C57_sweep_run_file",
    "PyFlowGo.C57_sweep_names"
   ],
   "note": "File names are injective in the rate; each run of a sweep is a run from an empty log on the template with that rate."
  },
  {
   "property": "C58",
   "status": "proved",
   "theorems": [
    "PyFlowGo.C58_only_the_working_copy",
    "PyFlowGo.C58_working_copy",
    "PyFlowGo.C58_same_folder",
    "PyFlowGo.C58_template_overwritten"
   ],
   "note": "The expectation fails exactly when the results folder is the template's folder; witness and positive half proved."
  },
  {
   "property": "C59",
   "status": "proved",
   "theorems": [
    "PyFlowGo.C59_run_out_bounds",
    "PyFlowGo.C59_overshoot",
    "PyFlowGo.C59_line_shows",
    "PyFlowGo.C59_run_out_line",
    "PyFlowGo.C59_largest_position_is_last",
    "PyFlowGo.C59_run_out_of_a_run"
   ],
   "note": "Exact value of the printed run-out, bounds, and witness that it overshoots the last position."
  },
  {
   "property": "C60",
   "status": "proved",
   "theorems": [
    "PyFlowGo.C60_one_row_fails",
    "PyFlowGo.C60_partial_row_fails",
    "PyFlowGo.C60_post_processing_works_iff",
    "PyFlowGo.C60_run_can_be_post_processed"
   ],
   "note": "Exact condition for post-processing; witnesses of runs whose result cannot be processed."
  },
  {
   "property": "C61",
   "status": "proved",
   "theorems": [
    "PyFlowGo.C61_unedited",
    "PyFlowGo.C61_unchanged_iff",
    "PyFlowGo.C61_which_fields_survive",
    "PyFlowGo.C61_smoothing_example",
    "PyFlowGo.C61_colliding_names",
    "PyFlowGo.C61_no_such_field",
    "PyFlowGo.C61_field_after_save",
    "PyFlowGo.C61_smoothing_switched_off",
    "PyFlowGo.C61_mass_conservation_kept",
    "PyFlowGo.C61_edit_one_field"
   ],
   "note": "Exact result of an unedited save and of an edit of one field for clean keys; which values survive; consequences for slope smoothing and mass conservation; witness for colliding names. str/json.loads are a codec with stated laws, instantiated."
  },
  {
   "property": "C62",
   "status": "proved",
   "theorems": [
    "PyFlowGo.C62_table_accepted",
    "PyFlowGo.C62_centred_difference",
    "PyFlowGo.C62_rate_nonneg",
    "PyFlowGo.C62_segment_slope",
    "PyFlowGo.C62_no_table"
   ],
   "note": ""
  },
  {
   "property": "C63",
   "status": "proved",
   "theorems": [
    "PyFlowGo.C63_rows_cases",
    "PyFlowGo.C63_rows",
    "PyFlowGo.C63_positions",
    "PyFlowGo.C63_rows_are_final_end",
    "PyFlowGo.C63_rows_are_final"
   ],
   "note": "Positive step, empty initial log."
  },
  {
   "property": "C64",
   "status": "proved",
   "theorems": [
    "PyFlowGo.C64_table",
    "PyFlowGo.C64_integrated"
   ],
   "note": "Positive step, empty initial log; real arithmetic."
  },
  {
   "property": "C65",
   "status": "proved",
   "theorems": [
    "PyFlowGo.C65_dotted_section_loses_entry",
    "PyFlowGo.C65_repeated_section_gets_entry_too",
    "PyFlowGo.C65_save_fails",
    "PyFlowGo.C65_text_in_the_way",
    "PyFlowGo.C65_new_entry"
   ],
   "note": "Positive statement under the clean-key conditions and three witnesses outside them."
  },
  {
   "property": "C66",
   "status": "proved",
   "theorems": [
    "PyFlowGo.C66_readings_differ",
    "PyFlowGo.C66_same_as_runner",
    "PyFlowGo.C66_text_true_differs"
   ],
   "note": "Equality for all configurations on which both read mass_conservation alike, an exact characterisation of the others, and a witness on which the outcomes differ."
  },
  {
   "property": "C67",
   "status": "proved",
   "theorems": [
    "PyFlowGo.C67_curves",
    "PyFlowGo.C67_run_can_be_drawn",
    "PyFlowGo.C67_source_is_not_drawn",
    "PyFlowGo.C67_files",
    "PyFlowGo.C67_failures",
    "PyFlowGo.C67_run_failures"
   ],
   "note": "Exact characterisation (iff) of the drawable results and of the curves, and of the exception of every result that cannot be drawn (C67_failures, C67_run_failures); drawing itself is not modelled."
  },
  {
   "property": "C68",
   "status": "proved",
   "theorems": [
    "PyFlowGo.C68_sweep_output",
    "PyFlowGo.C68_one_bad_run",
    "PyFlowGo.C68_silent_run",
    "PyFlowGo.C68_empty_sweep"
   ],
   "note": "Exact characterisation for sweeps whose runs all logged something; witnesses for the unexpected cases."
  },
  {
   "property": "C69",
   "status": "proved",
   "theorems": [
    "PyFlowGo.C69_distance_law",
    "PyFlowGo.C69_temperature_law",
    "PyFlowGo.C69_distance_table",
    "PyFlowGo.C69_temperature_table"
   ],
   "note": "Real arithmetic; positive step and fresh log; positive rates for the temperature model."
  },
  {
   "property": "C70",
   "status": "proved",
   "theorems": [
    "PyFlowGo.C70_euler_table"
   ],
   "note": "Real arithmetic; positive step, fresh log. For strain-dependent rheologies the row is described with the strain rate it shows; the additive law of the flux columns is for strain-independent ones (C45 shows it fails otherwise)."
  },
  {
   "property": "C71",
   "status": "proved",
   "theorems": [
    "PyFlowGo.C71_budget_columns",
    "PyFlowGo.C71_flux_columns",
    "PyFlowGo.C71_column_of_a_flux"
   ],
   "note": "For strain-dependent lavas the two evaluations of a flux may differ (C45_strain_dependent_log_differs), so the statement is restricted to strain-independent lavas."
  },
  {
   "property": "C72",
   "status": "proved",
   "theorems": [
    "PyFlowGo.C72_planck_pos",
    "PyFlowGo.C72_planck_increasing",
    "PyFlowGo.C72_shares",
    "PyFlowGo.C72_radiance_pos",
    "PyFlowGo.C72_negative_radiance",
    "PyFlowGo.C72_hotter_is_brighter",
    "PyFlowGo.C72_crust_is_darker",
    "PyFlowGo.C72_radiance_column"
   ],
   "note": "Exact real arithmetic: overflow of math.exp below about 23 K is not modelled."
  },
  {
   "property": "C73",
   "status": "proved",
   "theorems": [
    "PyFlowGo.C73_profile_reads_back",
    "PyFlowGo.C73_profile_lines",
    "PyFlowGo.C73_short_line_is_fatal",
    "PyFlowGo.C73_trailing_blank_line",
    "PyFlowGo.C73_same_samples",
    "PyFlowGo.C73_crust_profile",
    "PyFlowGo.C73_crust_failures",
    "PyFlowGo.C73_plot_failures",
    "PyFlowGo.C73_slope_failures",
    "PyFlowGo.C73_terrain_failures"
   ],
   "note": "float() is an arbitrary partial function on texts. Findings: a trailing blank line is an IndexError."
  },
  {
   "property": "C74",
   "status": "proved",
   "theorems": [
    "PyFlowGo.C74_csv_reads_back",
    "PyFlowGo.C74_carriage_return_is_lost",
    "PyFlowGo.C74_result_file",
    "PyFlowGo.C74_columns",
    "PyFlowGo.C74_any_text_is_readable"
   ],
   "note": "csv is modelled after CPython's Modules/_csv.c; str/float are a codec with float(str(x)) = x as hypothesis."
  },
  {
   "property": "C75",
   "status": "proved",
   "theorems": [
    "PyFlowGo.C75_run_out_table",
    "PyFlowGo.C75_run_out_figure",
    "PyFlowGo.C75_no_lines_no_figure",
    "PyFlowGo.C75_get_run_outs"
   ],
   "note": "Lava names with a carriage return are excluded (they come back with a line feed)."
  },
  {
   "property": "C76",
   "status": "proved",
   "theorems": [
    "PyFlowGo.C76_field_crust",
    "PyFlowGo.C76_field_without_profile",
    "PyFlowGo.C76_crust_file",
    "PyFlowGo.C76_melts_file"
   ],
   "note": "All parts proved over the reals; the number parser is arbitrary."
  },
  {
   "property": "C77",
   "status": "proved",
   "theorems": [
    "PyFlowGo.C77_file_name",
    "PyFlowGo.C77_missing_path",
    "PyFlowGo.C77_single_shows_the_run",
    "PyFlowGo.C77_failed_figures_keep_the_result",
    "PyFlowGo.C77_failed_run",
    "PyFlowGo.C77_not_numeric",
    "PyFlowGo.C77_sweep_of_whole_numbers",
    "PyFlowGo.C77_fractional_step"
   ],
   "note": "All parts proved; dialogs and drawing are not modelled."
  },
  {
   "property": "C78",
   "status": "proved",
   "theorems": [
    "PyFlowGo.C78_vent_list",
    "PyFlowGo.C78_ragged_lines",
    "PyFlowGo.C78_no_flow_id",
    "PyFlowGo.C78_new_json",
    "PyFlowGo.C78_new_json_ok",
    "PyFlowGo.C78_result_named_after_vent"
   ],
   "note": "All parts proved."
  },
  {
   "property": "C79",
   "status": "proved",
   "theorems": [
    "PyFlowGo.C79_written_text",
    "PyFlowGo.C79_indented",
    "PyFlowGo.C79_load_is_the_grammar",
    "PyFlowGo.C79_other_texts_refused",
    "PyFlowGo.C79_unambiguous",
    "PyFlowGo.C79_line_endings",
    "PyFlowGo.C79_round_trip",
    "PyFlowGo.C79_written_in_ascii",
    "PyFlowGo.C79_loaded_keys_distinct",
    "PyFlowGo.C79_rewritten_file",
    "PyFlowGo.C79_rewrite_succeeds"
   ],
   "note": "All parts proved. Recursion limit, the digit limit of int and lone surrogates are not modelled."
  },
  {
   "property": "C80",
   "status": "proved",
   "theorems": [
    "PyFlowGo.C80_which_fields_are_kept",
    "PyFlowGo.C80_what_becomes_of_the_others",
    "PyFlowGo.C80_codec_is_python",
    "PyFlowGo.C80_saved_file",
    "PyFlowGo.C80_second_save_changes_nothing",
    "PyFlowGo.C80_shown_text"
   ],
   "note": "str of floats and isprintable outside ASCII are parameters; FloatFormat states the fact about Python's float texts that is used."
  },
  {
   "property": "C81",
   "status": "proved",
   "theorems": [
    "PyFlowGo.C81_run_on_texts"
   ],
   "note": "The printed numbers are modelled with an arbitrary rounding function (float(str(x)) = rd x); the laws hold for the numbers before rounding. A slope or crust profile that cannot be parsed is treated as unreadable, which raises another exception than Python's (C73, C76 cover the kind)."
  },
  {
   "property": "C82",
   "status": "proved",
   "theorems": [
    "PyFlowGo.C82_inputs_determine_result",
    "PyFlowGo.C82_bad_configuration",
    "PyFlowGo.C82_disk_grows_by_one_file",
    "PyFlowGo.C82_rerun",
    "PyFlowGo.C82_name_of_the_result"
   ],
   "note": "The file system is a list of (file, text) pairs, later writes first; the directory of the result is not modelled."
  },
  {
   "property": "C83",
   "status": "proved",
   "theorems": [
    "PyFlowGo.C83_every_run_ends",
    "PyFlowGo.C83_bound"
   ],
   "note": "Holds for every rounding with finite range; no accuracy is assumed. Overflow to inf and nan are not modelled (saturation instead)."
  },
  {
   "property": "C84",
   "status": "proved",
   "theorems": [
    "PyFlowGo.C84_monotone",
    "PyFlowGo.C84_velocity_positive",
    "PyFlowGo.C84_no_warming",
    "PyFlowGo.C84_heat_positive",
    "PyFlowGo.C84_velocity_two_passes",
    "PyFlowGo.C84_velocity_converges"
   ],
   "note": "Assumes of the rounding only that it is monotone, idempotent and odd (IEEE rounding to nearest without overflow; proved of the binary formats in Proofs/RoundFormat.lean)."
  },
  {
   "property": "C85",
   "status": "proved",
   "theorems": [
    "PyFlowGo.C85_volume",
    "PyFlowGo.C85_rows_agree",
    "PyFlowGo.C85_mass",
    "PyFlowGo.C85_energy",
    "PyFlowGo.C85_relative_error"
   ],
   "note": "Assumes a purely relative error (no underflow); the 53-bit format without exponent bounds satisfies it."
  },
  {
   "property": "C86",
   "status": "proved",
   "theorems": [
    "PyFlowGo.C86_position_drift",
    "PyFlowGo.C86_step_is_felt",
    "PyFlowGo.C86_row_per_step",
    "PyFlowGo.C86_absorbed_step"
   ],
   "note": "u and eta are the relative and absolute error of the rounding (2^-53 and 2^-1075 for doubles)."
  },
  {
   "property": "C87",
   "status": "proved",
   "theorems": [
    "PyFlowGo.C87_costa_laws",
    "PyFlowGo.C87_costa_total",
    "PyFlowGo.C87_costa_pure_melt",
    "PyFlowGo.C87_costa_increasing",
    "PyFlowGo.C87_costa_bounded",
    "PyFlowGo.C87_costa_reads_crystals_only",
    "PyFlowGo.C87_costa_single_none",
    "PyFlowGo.C87_costa_single_class"
   ],
   "note": "Theorems C87_* in Props/Costa: the four fits, totality and >= 1, value 1 without crystals, strict monotonicity, two-sided bound, dependence on crystals only, the unused class."
  },
  {
   "property": "C88",
   "status": "proved",
   "theorems": [
    "PyFlowGo.C88_mader_law",
    "PyFlowGo.C88_mader_newtonian",
    "PyFlowGo.C88_mader_thins",
    "PyFlowGo.C88_mader_increasing",
    "PyFlowGo.C88_mader_thinner_than_melt"
   ],
   "note": "Theorems C88_* in Props/Costa. The last clause is a finding: nothing in the code bounds the strain rate from above."
  },
  {
   "property": "C89",
   "status": "proved",
   "theorems": [
    "PyFlowGo.C89_sweep_on_texts",
    "PyFlowGo.C89_results_on_disk",
    "PyFlowGo.C89_other_files_untouched",
    "PyFlowGo.C89_template_kept"
   ],
   "note": "C89_sweep_on_texts: each run equals the stand-alone run; C89_results_on_disk: which texts are on the disk at the end; C89_other_files_untouched, C89_template_kept. Non-vacuity: Props/SweepTextExample.lean, a sweep of two rates with complete runs on both platforms. Numbers in the template must be readable (float(repr x) = x), which holds for floats."
  },
  {
   "property": "C90",
   "status": "proved",
   "theorems": [
    "PyFlowGo.C90_run_out_of_a_text",
    "PyFlowGo.C90_get_run_outs",
    "PyFlowGo.C90_only_if",
    "PyFlowGo.C90_stops_at_first_failure",
    "PyFlowGo.C90_run_out_of_a_run",
    "PyFlowGo.C90_complete_result_is_reported"
   ],
   "note": "C90_run_out_of_a_text (iff), C90_get_run_outs, C90_only_if, C90_stops_at_first_failure, C90_run_out_of_a_run, C90_complete_result_is_reported. Non-vacuity: Props/RunOutsDiskExample.lean runs the example and post-processes it. The run-out file must not be one of the files read (pathological names); lava names without carriage return."
  },
  {
   "property": "C91",
   "status": "proved",
   "theorems": [
    "PyFlowGo.C91_curves_of_a_text",
    "PyFlowGo.C91_result_of_a_log",
    "PyFlowGo.C91_complete_result_is_drawn",
    "PyFlowGo.C91_figure_of_a_run",
    "PyFlowGo.C91_plot_all_results",
    "PyFlowGo.C91_label",
    "PyFlowGo.C91_label_of_a_result",
    "PyFlowGo.C91_labels_distinct"
   ],
   "note": "C91_curves_of_a_text (iff for any text), C91_result_of_a_log (iff for the text of a log), C91_figure_of_a_run, C91_plot_all_results (iff), C91_complete_result_is_drawn, C91_label, C91_label_of_a_result, C91_labels_distinct. Non-vacuity: Props/PlotTextExample.lean runs the example and draws it. Labels: the folder has a name and the lava name has no path separator. The saved image files are not modelled."
  },
  {
   "property": "C92",
   "status": "proved",
   "theorems": [
    "PyFlowGo.C92_complete_sweep",
    "PyFlowGo.C92_sweep_completes",
    "PyFlowGo.C92_results_survive"
   ],
   "note": "C92_complete_sweep, C92_sweep_completes, C92_results_survive; Spec/SweepFullText.lean says which files must be apart (Apart) and what holds per rate (RateDone). Non-vacuity: Props/SweepFullTextExample.lean, a complete sweep over two rates on both platforms. Image files are not modelled."
  },
  {
   "property": "C93",
   "status": "proved",
   "theorems": [
    "PyFlowGo.C93_curves_of_a_text",
    "PyFlowGo.C93_field_figure",
    "PyFlowGo.C93_result_of_a_log",
    "PyFlowGo.C93_columns_of_a_run",
    "PyFlowGo.C93_figure_of_a_run",
    "PyFlowGo.C93_label_of_a_result",
    "PyFlowGo.C93_labels_distinct",
    "PyFlowGo.C93_labels_collide"
   ],
   "note": "C93_curves_of_a_text, C93_field_figure (equivalences), C93_result_of_a_log, C93_columns_of_a_run, C93_figure_of_a_run, C93_label_of_a_result, C93_labels_distinct, C93_labels_collide. Non-vacuity: Props/FieldPlotExample.lean, a run and its figure among field data. Axes, limits and colours are not modelled."
  },
  {
   "property": "C94",
   "status": "proved",
   "theorems": [
    "PyFlowGo.C94_same_preparation",
    "PyFlowGo.C94_unused_entries_are_irrelevant",
    "PyFlowGo.C94_unused_entries_on_texts"
   ],
   "note": "C94_same_preparation (equivalence), C94_unused_entries_are_irrelevant, C94_unused_entries_on_texts. Non-vacuity: a complete run with arbitrary VFT coefficients under the Shaw viscosity equals the known one (values and texts)."
  },
  {
   "property": "C95",
   "status": "proved",
   "theorems": [
    "PyFlowGo.C95_switch_without_effect",
    "PyFlowGo.C95_mass_flux_of_a_run"
   ],
   "note": "C95_switch_without_effect, C95_mass_flux_of_a_run. Non-vacuity: still_mass_run (complete run with any value of the switch), still_mass_simulation. The case effusion_rate_init = 0 raises AttributeError (C12)."
  },
  {
   "property": "C96",
   "status": "proved",
   "theorems": [
    "PyFlowGo.C96_shorter_channel",
    "PyFlowGo.C96_other_endings",
    "PyFlowGo.C96_max_channel_length",
    "PyFlowGo.C96_result_file_is_a_beginning"
   ],
   "note": "C96_shorter_channel, C96_other_endings, C96_max_channel_length, C96_result_file_is_a_beginning. Non-vacuity: cut_example (3 rows and 2 rows, other time at the vent), cut_text (the same on texts)."
  },
  {
   "property": "C97",
   "status": "proved",
   "theorems": [
    "PyFlowGo.C97_configured_depth",
    "PyFlowGo.C97_larger_rate",
    "PyFlowGo.C97_same_depth",
    "PyFlowGo.C97_zero_rate",
    "PyFlowGo.C97_depth_has_no_effect",
    "PyFlowGo.C97_same_channel_depth",
    "PyFlowGo.C97_deeper_channel",
    "PyFlowGo.C97_without_rate",
    "PyFlowGo.C97_program_depths"
   ],
   "note": "C97_configured_depth, C97_larger_rate, C97_same_depth, C97_zero_rate (simulation); C97_depth_has_no_effect, C97_same_channel_depth, C97_deeper_channel, C97_without_rate (configuration files); C97_program_depths (the grid of the program). Non-vacuity: depth_example, rate_example and the example after it, zero_example (complete runs of three rows)."
  },
  {
   "property": "C98",
   "status": "proved",
   "theorems": [
    "PyFlowGo.C98_origin_has_no_effect",
    "PyFlowGo.C98_variable_vesicles_see_the_origin"
   ],
   "note": "C98_origin_has_no_effect, C98_variable_vesicles_see_the_origin. Non-vacuity: origin_example (a complete run of three rows moved by 100 m)."
  },
  {
   "property": "C99",
   "status": "proved",
   "theorems": [
    "PyFlowGo.C99_first_order",
    "PyFlowGo.C99_refinement_converges",
    "PyFlowGo.C99_two_steps"
   ],
   "note": "C99_first_order, C99_two_steps, C99_refinement_converges (solutions exist and all runs of the family complete; error C/n for every n). Lavas with a strain-dependent rheology are excluded: their step uses the strain rate of the row before."
  },
  {
   "property": "C100",
   "status": "proved",
   "theorems": [
    "PyFlowGo.C100_cut_file",
    "PyFlowGo.C100_cut_result",
    "PyFlowGo.C100_column",
    "PyFlowGo.C100_wrong_number"
   ],
   "note": "C100_cut_file (records), C100_cut_result (rows), C100_column (one column), C100_wrong_number (witness: 1234 cut to 12 is read as 12). Column names and number texts are assumed to need no quotes, as those of the code do."
  },
  {
   "property": "C101",
   "status": "proved",
   "theorems": [
    "PyFlowGo.C101_killed_run",
    "PyFlowGo.C101_cut_results_are_safe"
   ],
   "note": "C101_cut_results_are_safe (any table whose last columns are tho_0, tho_b), C101_killed_run (every completed run). The value of tho_b itself is read but shown nowhere. Assumes that the text of every number is accepted by float, needs no quotes, and that the empty text is no number."
  },
  {
   "property": "C102",
   "status": "proved",
   "theorems": [
    "PyFlowGo.C102_cut_configuration",
    "PyFlowGo.C102_cut_written_file",
    "PyFlowGo.C102_cut_dump",
    "PyFlowGo.C102_nothing_happens"
   ],
   "note": "C102_cut_configuration (any text), C102_cut_written_file, C102_cut_dump (what the package writes), C102_nothing_happens (programs)."
  },
  {
   "property": "C103",
   "status": "proved",
   "theorems": [
    "PyFlowGo.C103_main_run",
    "PyFlowGo.C103_not_an_object",
    "PyFlowGo.C103_failures",
    "PyFlowGo.C103_figure",
    "PyFlowGo.C103_curves_of_the_run",
    "PyFlowGo.C103_silent_run",
    "PyFlowGo.C103_main_plot"
   ],
   "note": "Proved. The paths written into the scripts are parameters. The expectation that the figure shows the run just made fails when the run logs nothing (C103_silent_run)."
  },
  {
   "property": "C104",
   "status": "proved",
   "theorems": [
    "PyFlowGo.C104_venus_curves_of_a_text",
    "PyFlowGo.C104_venus_figure",
    "PyFlowGo.C104_mauna_ulu_figure",
    "PyFlowGo.C104_own_result",
    "PyFlowGo.C104_columns_of_a_run",
    "PyFlowGo.C104_result_of_a_log",
    "PyFlowGo.C104_venus_figure_of_a_run",
    "PyFlowGo.C104_labels",
    "PyFlowGo.C104_labels_collide"
   ],
   "note": "Proved. Axes, titles, legends and image files are not modelled; the paths written into the scripts are parameters. The label of the file the Venus script itself compares with is `mplate_test_rad_lin_emi_700m3` (C104_labels_collide)."
  },
  {
   "property": "C105",
   "status": "proved",
   "theorems": [
    "PyFlowGo.C105_wider_channel",
    "PyFlowGo.C105_shown",
    "PyFlowGo.C105_radiance_is_not_proportional"
   ],
   "note": "C105_wider_channel (whole run, log and file), C105_shown (what the rows show), C105_radiance_is_not_proportional. Spec/Wider.lean lists the columns. Example: the still run in a channel twice as wide (Props/WiderExample.lean)."
  },
  {
   "property": "C106",
   "status": "proved",
   "theorems": [
    "PyFlowGo.C106_heat_account",
    "PyFlowGo.C106_lifetime",
    "PyFlowGo.C106_run_out_bound",
    "PyFlowGo.C106_radiating_flow",
    "PyFlowGo.C106_mass_account",
    "PyFlowGo.C106_mass_lifetime"
   ],
   "note": "C106_heat_account, _lifetime, _run_out_bound, _radiating_flow for volume conservation; The bounds rho, q, V are hypotheses on the columns of the result; the radiating flow shows where q comes from. The last, incomplete row is at most one step further. C106_mass_account and C106_mass_lifetime: account and life time with mass conservation."
  },
  {
   "property": "C107",
   "status": "proved",
   "theorems": [
    "PyFlowGo.C107_every_schedule",
    "PyFlowGo.C107_other_files",
    "PyFlowGo.C107_everyone_ends",
    "PyFlowGo.C107_order_does_not_matter",
    "PyFlowGo.C107_run_touches",
    "PyFlowGo.C107_sweep_touches",
    "PyFlowGo.C107_separate_files"
   ],
   "note": "File systems with atomic reads of whole files; threads of one process share the logger singleton and are excluded."
  },
  {
   "property": "C108",
   "status": "proved",
   "theorems": [
    "PyFlowGo.C108_two_sweeps_one_folder"
   ],
   "note": "A negative property: shows that the hypothesis of C107 cannot be dropped."
  },
  {
   "property": "C109",
   "status": "proved",
   "theorems": [
    "PyFlowGo.C109_run_interrupted",
    "PyFlowGo.C109_sweep_interrupted",
    "PyFlowGo.C109_results_after_interruption",
    "PyFlowGo.C109_run_again",
    "PyFlowGo.C109_sweep_again"
   ],
   "note": "Writes reach the disk in order (no reordering by the file system)."
  },
  {
   "property": "C110",
   "status": "proved",
   "theorems": [
    "PyFlowGo.C110_outcomes",
    "PyFlowGo.C110_files",
    "PyFlowGo.C110_many_times"
   ],
   "note": "Spec/Compatible, Proofs/Compatible, Props/Duplicates, example in Props/ScheduleExamples (three copies of one run). In a real file system a file two processes write at once may have NUL holes in between; the claim is about the end."
  },
  {
   "property": "C111",
   "status": "proved",
   "theorems": [
    "PyFlowGo.C111_saved_during_a_run",
    "PyFlowGo.C111_the_save_is_complete",
    "PyFlowGo.C111_saved_during_a_sweep",
    "PyFlowGo.C111_caught_empty"
   ],
   "note": "Spec/Saving, Proofs/Saving, Proofs/SavingSchedule, Props/Saving, Props/SavingExample. Hypothesis: profiles, working copy and results are other files than the configuration."
  },
  {
   "property": "C112",
   "status": "proved",
   "theorems": [
    "PyFlowGo.C112_run",
    "PyFlowGo.C112_program",
    "PyFlowGo.C112_only_where_floats_fault",
    "PyFlowGo.C112_simulation",
    "PyFlowGo.C112_step",
    "PyFlowGo.C112_run_exact"
   ],
   "note": "Model/NumpyNum, Spec/SameNumbers, Proofs/Transfer*, Proofs/NumpySame, Proofs/NumpyMap, Props/Numpy. Overflow to infinity of finite operands is not modelled."
  },
  {
   "property": "C113",
   "status": "proved",
   "theorems": [
    "PyFlowGo.C113_division",
    "PyFlowGo.C113_zero_rate",
    "PyFlowGo.C113_run_ends",
    "PyFlowGo.C113_melts",
    "PyFlowGo.C113_velocity_is_a_number"
   ],
   "note": "Spec/ZeroRate, Proofs/NumpySame, Props/NumpyZero."
  },
  {
   "property": "C114",
   "status": "proved",
   "theorems": [
    "PyFlowGo.C114_everything_writable",
    "PyFlowGo.C114_moment_of_failure",
    "PyFlowGo.C114_run",
    "PyFlowGo.C114_sweep_working",
    "PyFlowGo.C114_sweep_result",
    "PyFlowGo.C114_slash"
   ],
   "note": "An open that fails is modelled as the end of the process with the name of the file; other I/O errors (disk full during the write) leave what an interruption leaves (C109). C114_run, C114_sweep_working, C114_sweep_result, C114_moment_of_failure, C114_everything_writable, C114_slash; examples in Props/OpenFaultExample.lean."
  },
  {
   "property": "C115",
   "status": "proved",
   "theorems": [
    "PyFlowGo.C115_factory",
    "PyFlowGo.C115_run",
    "PyFlowGo.C115_refused"
   ],
   "note": "C115_factory (both directions), C115_run, C115_refused. Python's `in` on a list or a text is modelled (element, piece of the text). The exception of the slope profile itself is C88; that of the state at the vent C55. Messages of exceptions are not modelled."
  },
  {
   "property": "C116",
   "status": "proved",
   "theorems": [
    "PyFlowGo.C116_only_visited_positions",
    "PyFlowGo.C116_terrain_ahead",
    "PyFlowGo.C116_same_slopes",
    "PyFlowGo.C116_flat_samples",
    "PyFlowGo.C116_inserted_sample"
   ],
   "note": "C116_only_visited_positions for every arithmetic; C116_terrain_ahead, C116_same_slopes, C116_flat_samples, C116_inserted_sample on configurations over the reals. Slope files that cannot be opened or parsed are C48/C115. Examples in Props/AheadExample.lean: a complete run with an arbitrary continuation of the profile."
  },
  {
   "property": "C117",
   "status": "proved",
   "theorems": [
    "PyFlowGo.C117_single_step",
    "PyFlowGo.C117_loop",
    "PyFlowGo.C117_depth_search",
    "PyFlowGo.C117_run_completes",
    "PyFlowGo.C117_never_raises",
    "PyFlowGo.C117_packed_raises",
    "PyFlowGo.C117_sensible_vesicles",
    "PyFlowGo.C117_sensible_rates",
    "PyFlowGo.C117_template_sensible",
    "PyFlowGo.C117_template_completes",
    "PyFlowGo.C117_shipped_template"
   ],
   "note": "C117_run_completes / C117_never_raises for prepared configurations, C117_template_completes on the entries of the file, C117_shipped_template on the numbers of resource/template.json (without the smoothing of the profile), C117_packed_raises and its example for the exception. Not covered: the mader law (its check does not protect it, C30), Hon's crust law (log of the time, below 0 K for long flows), melts and field tables; float overflow."
  },
  {
   "property": "C118",
   "status": "proved",
   "theorems": [
    "PyFlowGo.C118_colder",
    "PyFlowGo.C118_shorter",
    "PyFlowGo.C118_never_warms"
   ],
   "note": "Both runs are assumed to have completed (C117 gives conditions). The mader relative-viscosity model is excluded from the length claim because its packing test is an equality. Crystallisation must be at a constant rate (the basic model)."
  },
  {
   "property": "C119",
   "status": "proved",
   "theorems": [
    "PyFlowGo.C119_loop",
    "PyFlowGo.C119_first_row",
    "PyFlowGo.C119_simulation",
    "PyFlowGo.C119_run",
    "PyFlowGo.C119_template"
   ],
   "note": "The mader relative-viscosity model and the Costa models with a strain rate they have no fit for are outside `Sensible` (C117). The stress comparison cannot include the vent itself: the program does not test it there (C19)."
  },
  {
   "property": "C120",
   "status": "proved",
   "theorems": [
    "PyFlowGo.C120_alone",
    "PyFlowGo.C120_private",
    "PyFlowGo.C120_raises",
    "PyFlowGo.C120_one_after_the_other",
    "PyFlowGo.C120_no_file",
    "PyFlowGo.C120_can_lose_the_file",
    "PyFlowGo.C120_rows_of_all",
    "PyFlowGo.C120_rows_stay",
    "PyFlowGo.C120_rows_since_the_last_constructor",
    "PyFlowGo.C120_undisturbed",
    "PyFlowGo.C120_mixed",
    "PyFlowGo.C120_mixed_runs",
    "PyFlowGo.C120_every_accepted_row",
    "PyFlowGo.C120_both_can_fail",
    "PyFlowGo.C120_both_can_be_wrong",
    "PyFlowGo.C120_same_configuration"
   ],
   "note": "Granularity: single_step, the constructor, the preparation and the writing of the file are atomic; real threads also switch inside them. The negative results hold a fortiori (these schedules are possible), the positive ones assume a lock around each of these calls."
  },
  {
   "property": "C121",
   "status": "proved",
   "theorems": [
    "PyFlowGo.C121_hotter",
    "PyFlowGo.C121_faster",
    "PyFlowGo.C121_farther",
    "PyFlowGo.C121_run",
    "PyFlowGo.C121_fluxes",
    "PyFlowGo.C121_channels",
    "PyFlowGo.C121_thinner",
    "PyFlowGo.C121_sensible",
    "PyFlowGo.C121_small_step",
    "PyFlowGo.C121_per_kelvin",
    "PyFlowGo.C121_larger_rate"
   ],
   "note": "At the reals. Excluded: the strain-rate dependent rheologies, temperature-dependent crystallisation rates, the cooling (time-dependent) crust, and the Snyder and viscous fluxes."
  },
  {
   "property": "C122",
   "status": "proved",
   "theorems": [
    "PyFlowGo.C122_colder",
    "PyFlowGo.C122_shorter",
    "PyFlowGo.C122_slower",
    "PyFlowGo.C122_same_lava",
    "PyFlowGo.C122_run",
    "PyFlowGo.C122_loses_more",
    "PyFlowGo.C122_sensible"
   ],
   "note": "At the reals. Excluded: the strain-rate dependent rheologies, temperature-dependent crystallisation rates, the cooling (time-dependent) crust, and the Snyder and viscous fluxes. With two emissivities crust and cover must be the same in both runs."
  },
  {
   "property": "C123",
   "status": "proved",
   "theorems": [
    "PyFlowGo.C123_two_rates",
    "PyFlowGo.C123_lines",
    "PyFlowGo.C123_sweep",
    "PyFlowGo.C123_run_outs",
    "PyFlowGo.C123_two_texts",
    "PyFlowGo.C123_run_outs_texts",
    "PyFlowGo.C123_sweep_texts"
   ],
   "note": "At the reals. The same exclusions as C121. Descending slope distances or a run that stops with a heat budget that is not positive are outside the statement (such a run cannot be post-processed, C124)."
  },
  {
   "property": "C124",
   "status": "proved",
   "theorems": [
    "PyFlowGo.C124_loop",
    "PyFlowGo.C124_run",
    "PyFlowGo.C124_post_processing",
    "PyFlowGo.C124_complete_rows"
   ],
   "note": "At the reals. Sensible as in C117 (parameters in their physical ranges; every rheology but costa's with the strain rate at the packing limit)."
  },
  {
   "property": "C125",
   "status": "proved",
   "theorems": [
    "PyFlowGo.C125_small_change",
    "PyFlowGo.C125_rain"
   ],
   "note": "At the reals. The Lipschitz condition is a hypothesis of C125_small_change; it is proved for the rain-cooled flow."
  },
  {
   "property": "C126",
   "status": "proved",
   "theorems": [
    "PyFlowGo.C126_search",
    "PyFlowGo.C126_kinder_is_easier",
    "PyFlowGo.C126_run",
    "PyFlowGo.C126_stuck_vent"
   ],
   "note": "at the level of the search, of configuration files, and the witness that the condition on moving lava is needed"
  },
  {
   "property": "C127",
   "status": "proved",
   "theorems": [
    "PyFlowGo.C127_loop",
    "PyFlowGo.C127_run",
    "PyFlowGo.C127_config"
   ],
   "note": "at the level of the loop, of prepared runs and of configuration files"
  },
  {
   "property": "C128",
   "status": "proved",
   "theorems": [
    "PyFlowGo.C128_hotter",
    "PyFlowGo.C128_faster",
    "PyFlowGo.C128_farther",
    "PyFlowGo.C128_run",
    "PyFlowGo.C128_sensible",
    "PyFlowGo.C128_small_step"
   ],
   "note": "at the level of tables, of sensible set-ups (with channels that may differ, too) and of configuration files"
  },
  {
   "property": "C129",
   "status": "proved",
   "theorems": [
    "PyFlowGo.C129_same_text",
    "PyFlowGo.C129_names_differ",
    "PyFlowGo.C129_one_after_the_other"
   ],
   "note": "together with C81 the lines of the script's file obey the laws of the flow"
  },
  {
   "property": "C130",
   "status": "proved",
   "theorems": [
    "PyFlowGo.C130_velocity_error",
    "PyFlowGo.C130_moves_below_yield",
    "PyFlowGo.C130_next_step_moves",
    "PyFlowGo.C130_stops_early"
   ],
   "note": "underflow is left out of the error bounds (absolute error 0), as in C86"
  },
  {
   "property": "C131",
   "status": "proved",
   "theorems": [
    "PyFlowGo.C131_rounding_error",
    "PyFlowGo.C131_thousand_steps"
   ],
   "note": "the accuracy of the computed gradients is a hypothesis of the general theorem (delta); it is proved for the example flow"
  },
  {
   "property": "C132",
   "status": "proved",
   "theorems": [
    "PyFlowGo.C132_total_error",
    "PyFlowGo.C132_thousand_steps"
   ],
   "note": "the accuracy of the computed gradients is a hypothesis of the general theorem (delta); it is proved for the example flow"
  },
  {
   "property": "C133",
   "status": "proved",
   "theorems": [
    "PyFlowGo.C133_one_phase",
    "PyFlowGo.C133_order",
    "PyFlowGo.C133_velocity",
    "PyFlowGo.C133_channel"
   ],
   "note": "Props/ModelOrder.lean. With no crystals and no bubbles ptp2 divides by zero (C30)."
  },
  {
   "property": "C134",
   "status": "proved",
   "theorems": [
    "PyFlowGo.C134_sensible",
    "PyFlowGo.C134_packing",
    "PyFlowGo.C134_melt",
    "PyFlowGo.C134_which_melts",
    "PyFlowGo.C134_phan_thien_pham",
    "PyFlowGo.C134_bubbles",
    "PyFlowGo.C134_yield",
    "PyFlowGo.C134_run"
   ],
   "note": "C134_sensible on the loop, C134_run on the runs of configuration files; the example runs the template with rain as only loss against a melt a quarter more viscous."
  },
  {
   "property": "C135",
   "status": "proved",
   "theorems": [
    "PyFlowGo.C135_profiles",
    "PyFlowGo.C135_gravity",
    "PyFlowGo.C135_run",
    "PyFlowGo.C135_sensible"
   ],
   "note": "C135_sensible for loops, C135_run for configurations, C135_profiles for slope files (smoothed or not), C135_gravity; a pair of template runs on two slope files is shown. Strain-rate lavas, melts-like crystallisation and a configured effusion rate are outside (for the last see C134's finding)."
  },
  {
   "property": "C136",
   "status": "proved",
   "theorems": [
    "PyFlowGo.C136_sensible",
    "PyFlowGo.C136_together",
    "PyFlowGo.C136_run"
   ],
   "note": "C136_sensible for loops, C136_run for configurations; an example pair of runs. The same limits as C134: no strain-rate laws, constant crystallisation rate, steady crust, configured depth. C136_together: C134, C135 and C136 at once."
  },
  {
   "property": "C137",
   "status": "proved",
   "theorems": [
    "PyFlowGo.C137_preparation",
    "PyFlowGo.C137_run",
    "PyFlowGo.C137_text"
   ],
   "note": "C137_preparation: equality of the prepared run or exception, for every arithmetic; C137_run: same outcome, log and results; C137_text: on texts. Example: a complete configuration written backwards gives the same complete run."
  },
  {
   "property": "C138",
   "status": "proved",
   "theorems": [
    "PyFlowGo.C138_rate"
   ],
   "note": "C138_rate, on the texts of the files, for every arithmetic. Example: a sweep over the rates 0 and 1 from a template with rate 1 and one over the rate 1 alone from a template with rate 0."
  },
  {
   "property": "C139",
   "status": "proved",
   "theorems": [
    "PyFlowGo.C139_preparation",
    "PyFlowGo.C139_run",
    "PyFlowGo.C139_text",
    "PyFlowGo.C139_sweep"
   ],
   "note": "C139_preparation, C139_run, C139_text, C139_sweep, for every arithmetic. Examples: the lava \"example\" and the same under the name \"other\", from another file, into another folder, alone and in two sweeps with different ranges."
  },
  {
   "property": "C140",
   "status": "proved",
   "theorems": [
    "PyFlowGo.C140_cover",
    "PyFlowGo.C140_crystallisation",
    "PyFlowGo.C140_vesicles",
    "PyFlowGo.C140_even_vesicles",
    "PyFlowGo.C140_models",
    "PyFlowGo.C140_text"
   ],
   "note": "C140_cover, C140_crystallisation, C140_vesicles, C140_models, C140_text for every arithmetic; C140_even_vesicles over the reals. Example: the complete run of C59 with crust cover, crystallization and vesicles exchanged."
  },
  {
   "property": "C141",
   "status": "proved",
   "theorems": [
    "PyFlowGo.C141_simulation",
    "PyFlowGo.C141_second_regime"
   ],
   "note": "C141_simulation (models), C141_second_regime (configuration and run). The vesicle model bimodal is not among the entries that may differ. Example: a run of three rows with cover and crystallization bimodal, ending at the critical distance, for every value in the second regime."
  }
 ]
}