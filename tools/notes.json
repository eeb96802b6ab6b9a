{
"C22": {
"note": "Positive half for every strain-independent rheology, classification of which relative-viscosity/bubble models are strain independent, and a witness (mader) that the velocity loop does not converge for the others."
},
"C27": {
"note": "The flux is monotone only above the yield depth; witness that the search accepts an immobile depth."
},
"C30": {
"note": "Per-model: exact where the check matches the law, counterexamples where it does not."
},
"C41": {
"note": "Law and definedness for every strain-independent lava; the basic class for every lava. The multi-evaluation classes of strain-dependent lavas use several covers and are covered only by C44."
},
"C42": {
"note": "The expected bound is false; proved what holds and that a uniform surface is cooled."
},
"C45": {
"note": "Sum and log agreement for strain-independent lavas; witnesses for strain-dependent lavas and for column overwriting."
},
"C46": {
"note": "The expectation is false in the code: viscous heating is added as a loss; proved at flux, budget and step level."
},
"C56": {
"note": "Exact when the step divides the range; otherwise the sweep overshoots by less than one step (proved); descending and empty sweeps characterised."
},
"C57": {
"note": "File names are injective in the rate; each run of a sweep is a run from an empty log on the template with that rate."
},
"C58": {
"note": "The expectation fails exactly when the results folder is the template's folder; witness and positive half proved."
},
"C59": {
"note": "Exact value of the printed run-out, bounds, and witness that it overshoots the last position."
},
"C60": {
"note": "Exact condition for post-processing; witnesses of runs whose result cannot be processed."
},
"C61": {
"note": "Exact result of an unedited save and of an edit of one field for clean keys; which values survive; consequences for slope smoothing and mass conservation; witness for colliding names. str/json.loads are a codec with stated laws, instantiated."
},
"C63": {
"note": "Positive step, empty initial log."
},
"C64": {
"note": "Positive step, empty initial log; real arithmetic."
},
"C65": {
"note": "Positive statement under the clean-key conditions and three witnesses outside them."
},
"C66": {
"note": "Equality for all configurations on which both read mass_conservation alike, an exact characterisation of the others, and a witness on which the outcomes differ."
},
"C67": {
"note": "Exact characterisation (iff) of the drawable results and of the curves, and of the exception of every result that cannot be drawn (C67_failures, C67_run_failures); drawing itself is not modelled."
},
"C68": {
"note": "Exact characterisation for sweeps whose runs all logged something; witnesses for the unexpected cases."
},
"C69": {
"note": "Real arithmetic; positive step and fresh log; positive rates for the temperature model."
},
"C70": {
"note": "Real arithmetic; positive step, fresh log. For strain-dependent rheologies the row is described with the strain rate it shows; the additive law of the flux columns is for strain-independent ones (C45 shows it fails otherwise)."
},
"C71": {
"note": "For strain-dependent lavas the two evaluations of a flux may differ (C45_strain_dependent_log_differs), so the statement is restricted to strain-independent lavas."
},
"C72": {
"note": "Exact real arithmetic: overflow of math.exp below about 23 K is not modelled."
},
"C73": {
"note": "float() is an arbitrary partial function on texts. Findings: a trailing blank line is an IndexError."
},
"C74": {
"note": "csv is modelled after CPython's Modules/_csv.c; str/float are a codec with float(str(x)) = x as hypothesis."
},
"C75": {
"note": "Lava names with a carriage return are excluded (they come back with a line feed)."
},
"C76": {
"note": "All parts proved over the reals; the number parser is arbitrary."
},
"C77": {
"note": "All parts proved; dialogs and drawing are not modelled."
},
"C78": {
"note": "All parts proved."
},
"C79": {
"note": "All parts proved. Recursion limit, the digit limit of int and lone surrogates are not modelled."
},
"C80": {
"note": "str of floats and isprintable outside ASCII are parameters; FloatFormat states the fact about Python's float texts that is used."
},
"C81": {
"note": "The printed numbers are modelled with an arbitrary rounding function (float(str(x)) = rd x); the laws hold for the numbers before rounding. A slope or crust profile that cannot be parsed is treated as unreadable, which raises another exception than Python's (C73, C76 cover the kind)."
},
"C82": {
"note": "The file system is a list of (file, text) pairs, later writes first; the directory of the result is not modelled."
},
"C83": {
"note": "Holds for every rounding with finite range; no accuracy is assumed. Overflow to inf and nan are not modelled (saturation instead)."
},
"C84": {
"note": "Assumes of the rounding only that it is monotone, idempotent and odd (IEEE rounding to nearest without overflow; proved of the binary formats in Proofs/RoundFormat.lean)."
},
"C85": {
"note": "Assumes a purely relative error (no underflow); the 53-bit format without exponent bounds satisfies it."
},
"C86": {
"note": "u and eta are the relative and absolute error of the rounding (2^-53 and 2^-1075 for doubles)."
},
"C87": {
"note": "Theorems C87_* in Props/Costa: the four fits, totality and >= 1, value 1 without crystals, strict monotonicity, two-sided bound, dependence on crystals only, the unused class."
},
"C88": {
"note": "Theorems C88_* in Props/Costa. The last clause is a finding: nothing in the code bounds the strain rate from above."
},
"C89": {
"note": "C89_sweep_on_texts: each run equals the stand-alone run; C89_results_on_disk: which texts are on the disk at the end; C89_other_files_untouched, C89_template_kept. Non-vacuity: Props/SweepTextExample.lean, a sweep of two rates with complete runs on both platforms. Numbers in the template must be readable (float(repr x) = x), which holds for floats."
},
"C90": {
"note": "C90_run_out_of_a_text (iff), C90_get_run_outs, C90_only_if, C90_stops_at_first_failure, C90_run_out_of_a_run, C90_complete_result_is_reported. Non-vacuity: Props/RunOutsDiskExample.lean runs the example and post-processes it. The run-out file must not be one of the files read (pathological names); lava names without carriage return."
},
"C91": {
"note": "C91_curves_of_a_text (iff for any text), C91_result_of_a_log (iff for the text of a log), C91_figure_of_a_run, C91_plot_all_results (iff), C91_complete_result_is_drawn, C91_label, C91_label_of_a_result, C91_labels_distinct. Non-vacuity: Props/PlotTextExample.lean runs the example and draws it. Labels: the folder has a name and the lava name has no path separator. The saved image files are not modelled."
},
"C92": {
"note": "C92_complete_sweep, C92_sweep_completes, C92_results_survive; Spec/SweepFullText.lean says which files must be apart (Apart) and what holds per rate (RateDone). Non-vacuity: Props/SweepFullTextExample.lean, a complete sweep over two rates on both platforms. Image files are not modelled."
},
"C93": {
"note": "C93_curves_of_a_text, C93_field_figure (equivalences), C93_result_of_a_log, C93_columns_of_a_run, C93_figure_of_a_run, C93_label_of_a_result, C93_labels_distinct, C93_labels_collide. Non-vacuity: Props/FieldPlotExample.lean, a run and its figure among field data. Axes, limits and colours are not modelled."
},
"C94": {
"note": "C94_same_preparation (equivalence), C94_unused_entries_are_irrelevant, C94_unused_entries_on_texts. Non-vacuity: a complete run with arbitrary VFT coefficients under the Shaw viscosity equals the known one (values and texts)."
},
"C95": {
"note": "C95_switch_without_effect, C95_mass_flux_of_a_run. Non-vacuity: still_mass_run (complete run with any value of the switch), still_mass_simulation. The case effusion_rate_init = 0 raises AttributeError (C12)."
},
"C96": {
"note": "C96_shorter_channel, C96_other_endings, C96_max_channel_length, C96_result_file_is_a_beginning. Non-vacuity: cut_example (3 rows and 2 rows, other time at the vent), cut_text (the same on texts)."
},
"C97": {
"note": "C97_configured_depth, C97_larger_rate, C97_same_depth, C97_zero_rate (simulation); C97_depth_has_no_effect, C97_same_channel_depth, C97_deeper_channel, C97_without_rate (configuration files); C97_program_depths (the grid of the program). Non-vacuity: depth_example, rate_example and the example after it, zero_example (complete runs of three rows)."
},
"C98": {
"note": "C98_origin_has_no_effect, C98_variable_vesicles_see_the_origin. Non-vacuity: origin_example (a complete run of three rows moved by 100 m)."
},
"C99": {
"note": "C99_first_order, C99_two_steps, C99_refinement_converges (solutions exist and all runs of the family complete; error C/n for every n). Lavas with a strain-dependent rheology are excluded: their step uses the strain rate of the row before."
},
"C100": {
"note": "C100_cut_file (records), C100_cut_result (rows), C100_column (one column), C100_wrong_number (witness: 1234 cut to 12 is read as 12). Column names and number texts are assumed to need no quotes, as those of the code do."
},
"C101": {
"note": "C101_cut_results_are_safe (any table whose last columns are tho_0, tho_b), C101_killed_run (every completed run). The value of tho_b itself is read but shown nowhere. Assumes that the text of every number is accepted by float, needs no quotes, and that the empty text is no number."
},
"C102": {
"note": "C102_cut_configuration (any text), C102_cut_written_file, C102_cut_dump (what the package writes), C102_nothing_happens (programs)."
},
"C103": {
"note": "Proved. The paths written into the scripts are parameters. The expectation that the figure shows the run just made fails when the run logs nothing (C103_silent_run)."
},
"C104": {
"note": "Proved. Axes, titles, legends and image files are not modelled; the paths written into the scripts are parameters. The label of the file the Venus script itself compares with is `mplate_test_rad_lin_emi_700m3` (C104_labels_collide)."
},
"C105": {
"note": "C105_wider_channel (whole run, log and file), C105_shown (what the rows show), C105_radiance_is_not_proportional. Spec/Wider.lean lists the columns. Example: the still run in a channel twice as wide (Props/WiderExample.lean)."
},
"C106": {
"note": "C106_heat_account, _lifetime, _run_out_bound, _radiating_flow for volume conservation; The bounds rho, q, V are hypotheses on the columns of the result; the radiating flow shows where q comes from. The last, incomplete row is at most one step further. C106_mass_account and C106_mass_lifetime: account and life time with mass conservation."
},
"C107": {
"note": "File systems with atomic reads of whole files; threads of one process share the logger singleton and are excluded."
},
"C108": {
"note": "A negative property: shows that the hypothesis of C107 cannot be dropped."
},
"C109": {
"note": "Writes reach the disk in order (no reordering by the file system)."
},
"C110": {
"note": "Spec/Compatible, Proofs/Compatible, Props/Duplicates, example in Props/ScheduleExamples (three copies of one run). In a real file system a file two processes write at once may have NUL holes in between; the claim is about the end."
},
"C111": {
"note": "Spec/Saving, Proofs/Saving, Proofs/SavingSchedule, Props/Saving, Props/SavingExample. Hypothesis: profiles, working copy and results are other files than the configuration."
},
"C112": {
"note": "Model/NumpyNum, Spec/SameNumbers, Proofs/Transfer*, Proofs/NumpySame, Proofs/NumpyMap, Props/Numpy. Overflow to infinity of finite operands is not modelled."
},
"C113": {
"note": "Spec/ZeroRate, Proofs/NumpySame, Props/NumpyZero."
},
"C114": {
"note": "An open that fails is modelled as the end of the process with the name of the file; other I/O errors (disk full during the write) leave what an interruption leaves (C109). C114_run, C114_sweep_working, C114_sweep_result, C114_moment_of_failure, C114_everything_writable, C114_slash; examples in Props/OpenFaultExample.lean."
},
"C115": {
"note": "C115_factory (both directions), C115_run, C115_refused. Python's `in` on a list or a text is modelled (element, piece of the text). The exception of the slope profile itself is C88; that of the state at the vent C55. Messages of exceptions are not modelled."
},
"C116": {
"note": "C116_only_visited_positions for every arithmetic; C116_terrain_ahead, C116_same_slopes, C116_flat_samples, C116_inserted_sample on configurations over the reals. Slope files that cannot be opened or parsed are C48/C115. Examples in Props/AheadExample.lean: a complete run with an arbitrary continuation of the profile."
},
"C117": {
"note": "C117_run_completes / C117_never_raises for prepared configurations, C117_template_completes on the entries of the file, C117_shipped_template on the numbers of resource/template.json (without the smoothing of the profile), C117_packed_raises and its example for the exception. Not covered: the mader law (its check does not protect it, C30), Hon's crust law (log of the time, below 0 K for long flows), melts and field tables; float overflow."
},
"C118": {
"note": "Both runs are assumed to have completed (C117 gives conditions). The mader relative-viscosity model is excluded from the length claim because its packing test is an equality. Crystallisation must be at a constant rate (the basic model)."
},
"C119": {
"note": "The mader relative-viscosity model and the Costa models with a strain rate they have no fit for are outside `Sensible` (C117). The stress comparison cannot include the vent itself: the program does not test it there (C19)."
},
"C120": {
"note": "Granularity: single_step, the constructor, the preparation and the writing of the file are atomic; real threads also switch inside them. The negative results hold a fortiori (these schedules are possible), the positive ones assume a lock around each of these calls."
},
"C121": {
"note": "At the reals. Excluded: the strain-rate dependent rheologies, temperature-dependent crystallisation rates, the cooling (time-dependent) crust, and the Snyder and viscous fluxes."
},
"C122": {
"note": "At the reals. Excluded: the strain-rate dependent rheologies, temperature-dependent crystallisation rates, the cooling (time-dependent) crust, and the Snyder and viscous fluxes. With two emissivities crust and cover must be the same in both runs."
},
"C123": {
"note": "At the reals. The same exclusions as C121. Descending slope distances or a run that stops with a heat budget that is not positive are outside the statement (such a run cannot be post-processed, C124)."
},
"C124": {
"note": "At the reals. Sensible as in C117 (parameters in their physical ranges; every rheology but costa's with the strain rate at the packing limit)."
},
"C125": {
"note": "At the reals. The Lipschitz condition is a hypothesis of C125_small_change; it is proved for the rain-cooled flow."
},
"C126": {
"note": "at the level of the search, of configuration files, and the witness that the condition on moving lava is needed"
},
"C127": {
"note": "at the level of the loop, of prepared runs and of configuration files"
},
"C128": {
"note": "at the level of tables, of sensible set-ups (with channels that may differ, too) and of configuration files"
},
"C129": {
"note": "together with C81 the lines of the script's file obey the laws of the flow"
},
"C130": {
"note": "underflow is left out of the error bounds (absolute error 0), as in C86"
},
"C131": {
"note": "the accuracy of the computed gradients is a hypothesis of the general theorem (delta); it is proved for the example flow"
},
"C132": {
"note": "the accuracy of the computed gradients is a hypothesis of the general theorem (delta); it is proved for the example flow"
},
"C133": {
"note": "Props/ModelOrder.lean. With no crystals and no bubbles ptp2 divides by zero (C30)."
},
"C134": {
"note": "C134_sensible on the loop, C134_run on the runs of configuration files; the example runs the template with rain as only loss against a melt a quarter more viscous."
},
"C135": {
"note": "C135_sensible for loops, C135_run for configurations, C135_profiles for slope files (smoothed or not), C135_gravity; a pair of template runs on two slope files is shown. Strain-rate lavas, melts-like crystallisation and a configured effusion rate are outside (for the last see C134's finding)."
},
"C136": {
"note": "C136_sensible for loops, C136_run for configurations; an example pair of runs. The same limits as C134: no strain-rate laws, constant crystallisation rate, steady crust, configured depth. C136_together: C134, C135 and C136 at once."
},
"C137": {
"note": "C137_preparation: equality of the prepared run or exception, for every arithmetic; C137_run: same outcome, log and results; C137_text: on texts. Example: a complete configuration written backwards gives the same complete run."
},
"C138": {
"note": "C138_rate, on the texts of the files, for every arithmetic. Example: a sweep over the rates 0 and 1 from a template with rate 1 and one over the rate 1 alone from a template with rate 0."
},
"C139": {
"note": "C139_preparation, C139_run, C139_text, C139_sweep, for every arithmetic. Examples: the lava \"example\" and the same under the name \"other\", from another file, into another folder, alone and in two sweeps with different ranges."
},
"C140": {
"note": "C140_cover, C140_crystallisation, C140_vesicles, C140_models, C140_text for every arithmetic; C140_even_vesicles over the reals. Example: the complete run of C59 with crust cover, crystallization and vesicles exchanged."
},
"C141": {
"note": "C141_simulation (models), C141_second_regime (configuration and run). The vesicle model bimodal is not among the entries that may differ. Example: a run of three rows with cover and crystallization bimodal, ending at the critical distance, for every value in the second regime."
}
}