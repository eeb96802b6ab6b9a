import json
plan={
'C01':'Model/Logger; refinement to the map "last matching call" (Spec/Log), induction over the call list; any value type with lawful ==.',
'C02':'Corollaries of the same refinement.',
'C03':'Model/Run: result of construct+run as a function of the previous log; equality for all logs; negation by a concrete two-run history.',
'C04':'Row-key invariant by induction over steps of the run (Model/Integrator, Model/Csv).',
'C05':'Fuelled loop + invariant position = x0+k*dx; show fuel ceil((L-x0)/dx) suffices, at ℝ.',
'C06':'Inversion lemma for an accepted step, then induction over accepted steps.',
'C07':'Inversion of single_step.','C08':'Inversion of single_step + algebra at ℝ.','C09':'C07+C08, sign reasoning.',
'C10':'Invariant by induction over accepted steps.','C11':'Inversion + field_simp; invariance of effusion_rate by induction.',
'C12':'Same with flux_rate : Option; the None branch is AttributeError.',
'C13':'Complete case analysis of single_step (iff).','C14':'Frame part of the same case analysis.','C15':'Inversion + algebra.',
'C16':'Case analysis + sign reasoning.','C17':'Factorisation 1-1.5r+0.5r^3 = (r-1)^2(r+2)/2.','C18':'nlinarith on the factorised form.',
'C19':'False: prove the velocity is > 0 for tho_0 > tho_b > 0; partial theorem for tho_0 = tho_b.',
'C20':'Loop recursion: second iteration sees the same viscosity.','C21':'Unfold; frame.','C22':'Strain-independence predicate on models; counterexample in bll.',
'C23':'Relation OnlyStrainLog preserved by bind; case analysis over fluxes; induction on the flux list.',
'C24':'C13 + C17 applied to the next step.','C25':'Induction on the grid list for an arbitrary grid.','C26':'Unfold.','C27':'Analysis at ℝ, plus witness.',
'C28':'rpow/exp monotonicity.','C29':'rpow lemmas per model.','C30':'Case analysis per model; boundary witnesses.','C31':'rpow lemmas.','C32':'Unfold, clamp lemmas.',
'C33':'Positivity of the three factors per model.','C34':'exp/rpow monotonicity.','C35':'sin positivity.','C36':'Unfold.','C37':'Factory output inspection; false part by the theorem that the bll yield vesicle is 0.1.',
'C38':'Case analysis.','C39':'exp bounds.','C40':'log10 monotonicity and domain.','C41':'rpow cancellation.','C42':'rpow bounds; negation at equal temperatures.',
'C43':'Algebra.','C44':'Case analysis over fluxes.','C45':'Induction on the flux list with strain-independence.','C46':'Positivity; negation of the expected sign.',
'C47':'polyrith/nlinarith bounds.','C48':'List filter/map.','C49':'List sums; bounds by induction.','C50':'Piecewise-linear interpolation lemmas by induction on the profile.',
'C51':'Factory inversion.','C52':'Factory inversion on the switches.','C53':'Factory + rate is identically zero; step faults.','C54':'Case analysis on JSON values.',
'C55':'Monadic inversion: success implies key present.','C56':'Integer range lemmas.','C57':'Injectivity of integer rendering.','C58':'File-system map model.',
'C59':'Positions increasing; list maximum.','C60':'Partial-row witness and the positive case.','C61':'Structural induction on JSON trees.','C62':'Interpolation lemmas.','C63':'Log shape lemmas by induction on the accepted steps.','C64':'C63 plus the inversion of an accepted step, row by row; sums by induction.','C65':'Walk down the section path by induction; witnesses by evaluation.','C66':'Model/MainScript; equality of the two preparations under the agreement condition, case analysis on the simulation; witness with a text "true".',
'C67':'Model/Plot; DictReader of a written log is the log (C04), column by column; rows of a run from C63; the loop over files by induction.',
'C68':'Model/SweepFull on top of C57 (fresh runs), C67 and C60; induction over the rates; complete example from JSON to run-out file.',
'C69':'Rate laws by case analysis; rows of the run from C63/C70; the switch row by induction on the number of rows using strict cooling.',
'C70':'Inversion of an accepted step (every logged cell), C63 for the finality of rows, preservation of the strain rate by every sub-model for strain-independent rheologies, C45 for the flux columns.',
'C71':'Spec/ColumnSpec.lean lists the auxiliary columns of each flux with their values (auxColumns) and the last value written under a name (lastWritten). flux_entries shows each evaluation adds exactly these; induction over the flux list (each flux is evaluated twice), then the row of C70.',
'C72':'Real analysis on the closed formula of Spec/ColumnSpec.lean; the column of a run by C71.',
'C73':'Model/TextFile models universal newlines, line iteration, strip, split and the four reading loops; Spec/TextSpec writes files; induction over the rows.',
'C74':"Model/CsvText models CPython's csv writer and reader state machine; the reader is run as a stream over the written text; induction over fields and records.",
'C75':"Model/RunOutText: text of the run-out file and the loop reading it back; from C74's reader lemma.",
'C76':'Model/TableText composes the text readers with the table constructors of C13/C14 and the interpolation of Model/Interp. Proof: the constructor is characterised by an iff (length, ascending), the value by the specification Interpolates of C12; the text parts reduce to C73 and to the csv round trip of C74 with the columns located by name.',
'C77':'Model/Gui models both handlers on top of the runner, the sweep with figures (C68) and the plot data (C67). Proof by case analysis of the handlers and the write theorem C04; truncation is specified by |i| <= |x| < |i|+1 and i*x >= 0.',
'C78':"Model/Vents on top of the csv reader (C74) and the JSON update of C56. Proof: the csv round trip with separator ';', set_spec for the update, and the definition of the result name.",
'C79':"Model/JsonText: CPython's scanner (strings with escapes and surrogate pairs, numbers, arrays, objects, dict of pairs) and encoder with indent=4. Spec/JsonText: the grammar of RFC 8259 as inductive relations, independent of the scanner. Proof: completeness by mutual induction on derivations with an explicit bound on the recursion budget, soundness by induction on the budget, the encoder by mutual induction on values.",
'C80':"Model/EditText.lean: Python's str/repr of loaded values (quote choice, escapes), json.loads, and the whole path file text -> widgets -> file text. Spec/EditText.lean: FieldKept, by cases on the value. Proof: the repr of a kept value is a text of the grammar (C79), the repr of any other value makes the scanner fail; then C61_unedited and C79_round_trip.",
'C81':'Model/RunText composes json.load (C79), the slope reader (C73), run (C55, C64) and the csv writer (C74) on a disk of texts; Spec/RunText says what a line shows; proof by composing C79, C55, C73, C64, C63 and C74.',
'C82':'Congruence of `prepare`, the factory and `run` in the two file readers of the environment, then the text model of C81; the rerun is the instance of two disks that differ in the written file.',
'C83':'Model: the generic single_step/run loop instantiated at a number type whose operations round with an arbitrary function (`Model/RoundNum.lean`). Proof: strict growth of the crystal fraction within a finite set; non-vacuity: the double format with saturation.',
'C84':'Model: rounded arithmetic. Proof: inversion of single_step for every number type, then monotonicity of the rounding; non-vacuity: a run of 1000 steps computed in doubles.',
'C85':'Model: rounded arithmetic. Proof: a calculus of relative errors (`Spec.Close`) applied to the formulas of an accepted step; non-vacuity: 1000 steps with 53 bits.',
'C86':'Model: rounded arithmetic. Proof: induction over the steps; the log lemma of C63 with distinctness from strict growth; non-vacuity: 1000 felt steps from 0 and two absorbed steps at 2^60 m in doubles.',
'C87':'Model/RelVisc costaLaw and Model/CostaSingle; Spec/Laws costa with erf as a Gaussian integral; monotonicity of erf by additivity of the integral, erf <= 1 by the Gaussian integral.',
'C88':'Spec/MaderLaw states equations 46, 49-51; case split on the two switches; rpow monotonicity.',
'C89':'Model/SweepText.lean repeats the sweep loop on a disk of texts (json.dump of the working copy, run on texts). Induction over the rates with C79 (round trip of the working copy), C82 (a run depends only on what it reads) gives C89_sweep_on_texts; C57 (distinct names) gives the final contents of the disk.',
'C90':'Model/RunOutsDisk.lean: the loop of run_outs.py on texts. An iff between the model and the declarative RunOutLine (Spec/RunOutsDisk.lean), then induction over the files; composition with C81 for the texts of a run and with C74/C75 for the tables.',
'C91':'Model/PlotText.lean repeats the plotting loop on a disk of texts. An iff between the model and the declarative CurvesIn (Spec/PlotText.lean), then induction over the files; composition with C81 for the text of a run.',
'C92':'Model/SweepFullText.lean composes sweepText, plotAllText, the second reading of the template and getRunOutsText on one disk of texts. C89 (runs), C91 (curves) and C90 (run-outs) are composed; the template after the runs is either untouched or the last working copy.',
'C93':'Model/FieldPlot.lean models the script on texts (readFieldRow, fieldResult, fieldPoints, fieldLabel, fieldLoop, fieldPlot); Spec/FieldPlot.lean says what is shown. fieldPlot is characterised by an equivalence; composed with C74 (result texts), C81 (runs on texts) and the columns of a run.',
'C94':'Spec/Relevant.lean lists the used and the idle entries of a selection and says when two configurations agree on them. Each builder is inverted with its C55 equivalence, transported to the other configuration, and the preparation of the run is the same; the rest of run() only depends on the preparation. Lifted to texts with the congruence of C82.',
'C95':'One step is the same with and without the switch when the mass flux is the effusion rate times the density; the depth search establishes this and steps keep it (induction over the loop). Preparations differ only in the switch (C94). The mass law follows from C70 with the mass flux of the depth search (C25).',
'C96':'Two runs kept alongside one another: states equal but for the length, the clock and the end flag; every model function preserves this relation (the crust models of Hon only if the clocks agree). Induction on the loop with the number of steps left to the shorter end. Preparations differ only in length and time (with C94). The file: writeValues of a prefix of the log is a prefix of the table, its text a prefix of the text.',
'C97':'Mirror: if a map of worlds commutes with every query and update of a step, the loop commutes with it (induction on the loop); instances: changing the configured rate, changing the mass flux when mass conservation is off. The strain rate a loop starts with is overwritten by the first velocity. A successful search is characterised by the first depth whose flow reaches the rate (with C25), so it depends on the rate only through that depth and is monotone in it. Preparations differ only in rate, depth and initial strain rate (with C94).',
'C98':'Mirror (C97) for the map of worlds that moves the state, the terrain, its profile and the log; the queries of every model commute with it. Splines, the reading of slope file and crust profile, the log and the csv table commute with the move. The configurations are compared entry by entry (with C55 and C94).',
'C99':'C70_euler_table gives the rows as Euler steps; Spec/Converge states the equations; the discrete Groenwall estimate (Proofs/EulerError) bounds the error; Picard-Lindeloef (Mathlib) and an explicit family of runs of every step size (Proofs/FineRun, FineProfile) show that the hypotheses are met.',
'C100':'A file cut at n is one of three kinds (between records, inside a field, inside an end-of-line; Spec/CutSpec); the csv reader is run on each kind (Proofs/CutLemmas).',
'C101':'C100 gives the shape of the last row; the header of a run is shown to end with tho_0, tho_b (first_row_columns, run_header); the readers of the three tools are shown to accept a cut row only if they give what the complete row gives.',
'C102':'Texts are lists of characters, a cut is `take n`. Bracket counting (Spec/JsonLayout) shows by induction over the grammar that every value text is balanced and that no proper beginning of an object text is; hence no beginning is a JSON text. The programs of the text model (run, sweeps, plots, rewriting, editor) are then evaluated on such a disk.',
'C103':'Model/Scripts.lean composes the run on texts (C81) with get_file_name_results and the plot on texts (C91). C103_main_run, C103_failures, C103_figure, C103_curves_of_the_run, C103_silent_run, C103_main_plot by inversion of the run (what it can write) and of the plot. Props/Scripts.lean, examples in ScriptsExample.lean.',
'C104':'Model/Scripts.lean: venusScript, maunaUluScript. C104_venus_curves_of_a_text, C104_venus_figure, C104_mauna_ulu_figure, C104_own_result, C104_columns_of_a_run, C104_result_of_a_log, C104_venus_figure_of_a_run, C104_labels, C104_labels_collide. Spec/CaseStudies.lean states curves as columns of the lines; examples in CaseStudiesExample.lean.',
'C105':'Follows: a second program does in the image of a world what the first does and gives the image of its value (Proofs/Wider.lean); every flux, the budget, the step, the loop and the depth search follow the map that multiplies width, rates and extensive columns. The spectral radiance is affine in the width (C72). Preparation compared entry by entry (C55, C94); the table follows the log.',
'C106':'From the Euler table (C70): per step the balance of latent heat and heat loss per square metre; summed by induction over the rows; the crystal budget (C10) bounds the growth; the velocity column turns age into distance.',
'C107':'Model/Process: run and sweep as trees of reads and writes; `Prog.run` is proved equal to the text-level functions of C81/C89 (job_solo). Isolation by induction over the schedule; footprints by an invariant along the process (Along).',
'C108':'Construct the two schedules from the stand-alone behaviour of the pieces (Proofs/Interleave: Reaches, four_turns); the rest of a run after its first look is shown not to depend on the rate it saw except in the name.',
'C109':'Along-invariants RunMoment and SweepMoment give the disk at every moment; restart by showing that the job reads nothing it may have written (Fresh), so that it acts on the disk of an earlier attempt as on the original one.',
'C110':'Process layer of C107. Compatible (Spec): nobody writes what another reads; common files end up the same. Invariant over schedules: every process is where it is on its own after as many steps; every file is as before, or was last written by a process whose last write it is. At the end the last write of each writer equals its final text.',
'C111':'Process layer of C107 plus a saving process. A run looks at its configuration only through json.load, ends at once when that raises, and writes only after its last read (Strict, by induction over the reading programs); C102 (a cut JSON object is no JSON, or the whole object). Invariant of the schedule: the run is where it would be had the whole text been there from the first write of the saver on. The sweep: split the schedule at its first step, then isolation (C107).',
'C112':"Numbers that carry the kind (Python float / numpy scalar) and values with signed zeros, infinities and nan (Model/NumpyNum); the relation 'same finite value' (Spec/SameNumbers); a transfer theorem for every function of the model (Proofs/Transfer, TransferRun, TransferConfig), by one class of laws (NumRel), instantiated at rounded arithmetic and at ℝ.",
'C113':'On the numbers of C112: characterise the quotient, then follow one step through the forward lemma of the loop; the end of the run follows from the stop test, which a temperature of -inf fails.',
'C114':'Model/OpenFault.lean: a process on a disk where a given set of names can be opened for writing (Prog.runWhere), the program itself being the one of C107. Spec/OpenFault.lean: files of a folder, the disk with a working copy. The run theorem by cases on what the program does after the preparation, the sweep theorems by induction over the rates before the failing one, the moment of failure by induction over the program, the slash theorem from the injectivity of os.path.join on relative names.',
'C115':'Spec/Diagnosis.lean: the requirements as data (Check, Item, the lists factoryItems, runItems, stateItems), each check with its exception written directly on the JSON value, the diagnosis being the first one that fails. Proofs/Diagnosis.lean: every reader raises what its part of the list says, composed along the factory. Props/Diagnosis.lean: the factory, the run and the converse.',
'C116':'Spec/Ahead.lean: SameUpTo, LooksAhead, Between on the samples as read. Proofs/Mirror.lean (Standing: everything evaluated at one state is preserved by a change of the terrain that keeps the slope at the current position) instantiated in Proofs/Swap.lean with the exchange of the spline; induction over the steps with the set of positions seen. Then the positions seen lie between the start and the end (C07), the end is one step behind a logged row (C63, C06), the profile up to there is determined by the common samples (interpolation and running mean are local).',
'C117':'Spec/Sensible.lean: Sensible (parameters), AtVent (state at the vent), AtPacking; Spec/Template.lean: Physical, one line per entry of the configuration. Proofs/Total.lean: every law is defined on a fit state and the sign of the velocity does not depend on the strain rate; TotalStep.lean: a small total-correctness logic (Runs) for the state monad, through all nine fluxes; TotalRun.lean: a step succeeds, and what it leaves has stopped, is packed or is fit again (the stop tests re-establish the hypotheses); induction over the loop, C05 for the end; TotalSearch.lean: the depth search.',
'C118':'Spec/Compare states NeverWarms, ColderSlower (one-sided bound on how much slower a colder lava cools) and BothShow. RunTable packages the Euler table of a run (C70) with its end; compare_states is an induction over the rows (discrete comparison principle), the length follows from the stop tests, each monotone in crystals and temperature.',
'C119':"Spec/Plausible lists the bounds column by column. Every state from which a step is accepted is fit (C117's invariant; a packed state cannot take a further step); RunTable gives what each column shows; the strain rate is followed through the heat budget; heat > 0 follows from the accepted growth of crystals; the mass flux left by the depth search has the sign of the velocity. The first row exists because neither rejection applies. Example: the shipped template run.",
'C120':'Model/Threads: a thread as a small state machine over the process (files, log); Spec/Threads: solo, SameOwn, Takes, NoConstructor, OthersQuiet. Proofs/Traced shows function by function that nothing computed in a step reads the log and that the calls of the logger are the same whatever it holds; by induction over the schedule the own state is that of the run alone and the log is a replay. The same-configuration theorem: a step executed again rewrites the cells it wrote, all at one position no other step uses.',
'C121':'Spec/Stronger (DrivesHarder, LosesNoMore, PerKelvin, ThinnerWhenHotter) and Spec/Everyday (the models, StepIsSmall on the columns of the table). stronger_tables is an induction over the rows of the two tables; per cubic metre carried, the faster channel is narrower and less crusted, so each flux takes no more from it (C121_fluxes), and the mean value theorem bounds what a flux takes more per kelvin (C121_per_kelvin). C121_sensible needs hypotheses on parameters, vent and table only; C121_run adds the depth search (C97).',
'C122':'Spec/Harsher (EqualLava, HarsherFlux, Harsher, LosesMore) and Spec/Surroundings (which entries of a configuration describe the surroundings). C122_loses_more compares the fluxes one by one (monotone in every parameter of the surroundings); harsher_states is an induction over the rows of both tables, using the step condition to keep the order of the temperatures. C122_sensible needs hypotheses on parameters, vent and table only; C122_same_lava shows that two configurations that differ in the surroundings prepare the same lava, channel and vent, and C122_run is the statement on configuration files.',
'C123':'Spec/SweepOrder (Flowed: what a run of the sweep must have shown). C121 says that every complete row of the run with the smaller rate is a complete row of the other; Proofs/RunOutOrder turns that into an order of the last rows, and through the slope line chosen by get_run_outs into an order of the rounded run-outs (C123_two_rates). C123_lines applies it to every pair of runs of a sweep; C123_sweep is the statement for the whole call of run_flowgo_effusion_rate_array, C123_run_outs for the sweep followed by get_run_outs (which needs no plots). Props/SweepOrderExample: a sweep of the shipped template with rain over two rates, all hypotheses met. Props/SweepOrderText: C123_two_texts (two runs and the two result texts), C123_run_outs_texts (run_flowgo_effusion_rate_array and get_run_outs on texts: figure and table) and C123_sweep_texts (the complete sweep on texts), via C89/C90/C92; Props/SweepOrderTextExample: the same sweep from text to text.',
'C124':'Props/LastRow. A step of a sensible set-up that loses heat is accepted and writes all columns (losing_heat_grows), one that does not is the last and writes a short row (noGrowth_heat); last_row is the resulting shape of the whole table from C63 and run_table. C124_complete_rows and C124_run state it for a run of a configuration file, C124_post_processing combines it with C60.',
'C125':'Spec/Stable (CloseEquations on the flow equations of Spec/Converge, ShownIn). Props/Stable: both tables are Euler tables (run_table); one step multiplies the difference by at most 1 + K dx and adds dx delta (stable_next), and the resulting bound is below the exponential (stable_bound); C125_small_change reads the two logs. Props/StableExample: C125_rain computes the right-hand sides of the rain-cooled flow and gives the constants.',
'C126':'Spec/KinderVent.lean says what a kinder vent is. Props/KinderVent.lean: the velocity is monotone in yield strength, viscosity and stress while the lava moves, so the second search stops no later than the first (C126_search); a kinder vent is easier by the monotonicity of C28, C29, C34, C35 (C126_kinder_is_easier); run level by the depth a run shows (C126_run). Props/StuckVent.lean: the counterexample without the last condition (C126_stuck_vent).',
'C127':'Spec/Resume.lean says when a prepared run, and a configuration file, begins where another shows given numbers. Proofs/Resume.lean: a simulation between the two runs that relates worlds with the earlier rows, the step counter, the clock and the effusion rate shifted; it holds of one step whether it is accepted, given up or raises. C127_loop for the step loop (from any row, with any other initial rate), C127_run for prepared runs, C127_config for configuration files. Props/ResumeExample.lean: a configuration with ten rows taken up again at the fourth.',
'C128':'Spec/Fresher.lean orders the two lavas. The comparison of C121 is generalised from equal vents to a difference of crystals that both runs carry along unchanged (their states stay on parallel lines of slope r): C128_hotter, C128_faster, C128_farther for any two channels of which the first drives the lava at least as hard, C128_small_step for the step, C128_sensible for sensible set-ups, C128_run for configuration files; C121 is the case of equal vents. Props/FresherExample.lean: the template under rain with 0.104 and 0.2 of crystals.',
'C129':'Model/MainText.lean: main_flowgo.py on texts. Spec/MainText.lean (SameResultText). C129_same_text from C66 and the JSON reader of C79; C129_names_differ; C129_one_after_the_other with C82. Witness: the disk of C81 on both kinds of platform.',
'C130':'Spec/RoundVelocity.lean (PlainNumbers). Proofs/RoundVelocity.lean: absolute error of the bracket, relative error of the prefactor. C130_velocity_error, C130_moves_below_yield, C130_next_step_moves. Proofs/RoundStops.lean evaluates rounding to nearest on a binade; C130_stops_early is the witness in doubles. Non-vacuous: 53 bits, and the thousand-step flow of C84.',
'C131':'Spec/RoundRun.lean (exactState, GradientsWithin, NumbersWithin), Proofs/RoundRun.lean (one rounded Euler update, rows kept in the log), Props/RoundedRun.lean C131_rounding_error by induction over the steps and the discrete Gronwall bound of C125. Proofs/RoundExact.lean, RoundExactRun.lean and Props/RoundedRunExample.lean: C131_thousand_steps meets every hypothesis with 53 bits.',
'C132':'C132_total_error in Props/RoundedConverge.lean: induction over the steps with the local errors of C99 (euler_local) and C131 (round_next) and the discrete Gronwall bound of C125. C132_thousand_steps in Props/RoundedConvergeExample.lean: the solution by Picard-Lindeloef, all hypotheses met.',
'C133':'Write the logarithms of the three laws in L(x) = -ln(1-x): ptp1 = 5/2 L(phi+v) - 3/2 L(v), ptp2 = L(phi+v)(1 + 3/2 phi/(phi+v)), ptp3 = L(phi+v) + 3/2 L(phi); strict convexity of L gives both inequalities and the cases of equality. The velocity follows from the antitonicity of the Bingham velocity in the viscosity (C20), the channel from C126.',
'C134':"Row by row: on the same state the thinner lava is faster (thin_velocity), loses no more heat per cubic metre through each flux (thin_fluxes), and a hotter state stays hotter under a small step (C121's one-sided Lipschitz bound); then the reasons to stop are compared (C13). C134_which_melts, C134_phan_thien_pham (on C133), C134_packing, C134_bubbles and C134_yield name lavas that qualify. Props/Thinner*.lean.",
'C135':'The same proof as C134 (gentler_sensible: induction over the rows with a comparison of hotness, crystals and velocity), with the basal stress of the first ground not smaller wherever the second flow has a row. Order of profiles by induction over the knots of the interpolation, of smoothed profiles by sums over the same windows.',
'C136':'The induction of C134 (gentler_sensible) for a lava of another density and latent heat: the heat lost per cubic metre and metre is nonnegative and not larger for the faster lava, and it is divided by a density times latent heat that is not smaller.',
'C137':'Spec/Reordered defines rearrangement with List.Perm. A lookup in a list without double keys does not change under a permutation; from this every check of the diagnosis of C115 gives the same exception and every reader the same value, so prepare returns the same result; runs and texts follow as for C94.',
'C138':'C89 shows that each run of a sweep is the run of the template with its rate, alone on the disk; two templates with the same entries but the rate, given the same rate, look the same to every reader (the lemma behind C137), so the two runs write the same text.',
'C139':'Spec/Renamed (agreement in all entries but one); every reader of the configuration gives the same on both (one lemma per class), so the preparation differs only in the name; then the run, its text (Props/RunText) and the sweep rate by rate (Props/SweepRange). Props/Renamed, Props/RenamedExample.',
'C140':'Spec/Switched (two configurations apart in one name; when a model has one law along the flow). Proofs/SameLaws: sets of models with the same values in every state give the same step, loop and depth search (extensional congruence). Props/OneRegime: the factory on both configurations gives such sets or the same exception; chains by induction; texts by Props/RunText. Props/OneRegimeExample: a complete run with three models exchanged.',
'C141':'Spec/SecondRegime (which entries may differ; models that are the same up to a place). Proofs/LawsUpTo: a step from a position up to there is the same. Props/SecondRegime: the loop by induction with the positions a completed run sees (C116), the factory on both configurations, run. Props/SecondRegimeExample: a complete run up to exactly the critical distance.'}
out=["## 4. Plan per property\n"]
for l in open('/verif/properties.jsonl'):
    d=json.loads(l)
    out.append(f"* **{d['id']}** {d['title']}. {plan.get(d['id'],'')}")
open('/verif/DESIGN.md','w').write(open('/verif/tools/design_head.md').read()+"\n".join(out)+"\n\n"+open('/verif/tools/design_tail.md').read()+open('/verif/tools/axioms.md').read())
