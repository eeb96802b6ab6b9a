# DESIGN — a Lean 4 model of PyFLOWGO and what is proved about it

Subject: `/repo` (pyflowgo/pyflowgo, pinned). Nothing in `/repo` is run; every definition in
`lean/Verif/Model/*.lean` cites the file and lines it models.

## 1. Shape of the model

* **Numbers.** All model functions are polymorphic in a number type `α` with the standard classes
  `Add/Sub/Mul/Neg/OfScientific` plus `PyNum α` (`Model/Num.lean`): comparisons as `Bool`, and the
  *partial* Python operations (`/`, `**`, `math.pow`, `math.log10`) as `Except Err α`, so that every
  fault of the code (ZeroDivisionError, math domain error, complex result) is an explicit branch.
  Three instances: `ℝ` (noncomputable, used by most proofs), `Rounded rd` (real numbers whose every operation, literal and
  math function is rounded by an arbitrary `rd`, `Model/RoundNum.lean`, used by C83-C86) and `Float` (computable, used only
  to run the model against numbers printed in the repository: a test, not a proof).
* **Exceptions are values.** Pure sub-models are `FlowState α → Except Err α`; code that mutates is in
  `PyM σ β := σ → Except Err β × σ`, so mutations made before an exception survive it, as in Python.
* **State.** `World α` = lava state (crystal fraction, temperature, position, time, strain rate),
  terrain (with its mutable depth), the process-wide log, and the integrator fields (effusion rate,
  flux rate *if assigned*, iteration, finished flag).
* **Models** are inductive types, one constructor per class of `/repo/pyflowgo`, carrying its parameters.
* **Log**: an ordered list of rows, each an insertion-ordered dictionary with the `'position'` key, for
  any value type with `==`.
* **Configuration**: a JSON tree (`Model/Json.lean`); `Model/Factory.lean` is the factory as a function
  `Json → Except Err …`.

Specifications used in theorem statements are in `Verif/Spec/*.lean`; they are short and do not use the
model's helpers. Helper lemmas are in `Verif/Proofs`, property theorems (names `Cnn_…`) in `Verif/Props`,
each followed by an `example` showing that a concrete non-trivial case satisfies its hypotheses.

## 2. Trusted base

* Lean 4.33.0's kernel; axioms used are at most `propext`, `Classical.choice`, `Quot.sound`
  (checked with `#print axioms`, see §5). No axiom is added, no compiled-code proof method is used.
* Mathlib for the reals and real analysis (checked by the same kernel).
* The reading of `/repo` by which the model was written (citations in every definition).
* **Real arithmetic instead of IEEE double.** Theorems instantiated at `ℝ` say nothing about rounding,
  overflow, NaN or infinities. C83-C86 are about rounded arithmetic: their assumptions on the rounding (`Spec/RoundSpec.lean`) are
  proved of the binary formats (53 bits, gradual underflow) in `Proofs/RoundFormat.lean`; overflow to inf, NaN and signed zeros are
  not modelled there, and `math.exp`, `math.sin`, ... are taken to be rounded by the same function. Theorems stated for every `α` (log, loop bookkeeping, factory, frame
  properties) hold for any arithmetic, hence also for doubles, unless they assume a law explicitly.
* Division by zero is modelled as the exception Python floats raise, except in C112-C113. After `init_effusion_rate` with a non-zero
  rate the depth is a `numpy.float64`, for which numpy warns and yields inf/nan instead. C112 proves that this makes no difference to
  runs without exceptions, and C113 what happens otherwise, on numbers that carry their kind, signed zeros, infinities and nan
  (`Model/NumpyNum.lean`); there, finite operands never overflow, and what scipy's spline returns has the kind of its knots.
* A negative number raised to a non-integer power is a complex number in Python 3; the model treats it as
  the fault `complexResult` at once (the code raises TypeError at the next comparison / math call).
* `scipy.interpolate.InterpolatedUnivariateSpline(x, y, k=1)` is modelled as exact piecewise-linear
  interpolation with linear extrapolation from the end segments, ValueError unless x is strictly
  increasing with at least two points.
* `float("inf")` (BLL model with vesicle fraction ≥ 1) is modelled as the fault `Err.infinite`.
* `numpy.arange(0.01, 50.0, 0.001)` is modelled as `0.01 + i*0.001` for `i < 49990`.
* `print`, matplotlib output, file permissions, encodings and the tkinter windows are not modelled.
* `json.load`/`json.dump` are modelled on texts in C79-C82 and at the level of JSON trees elsewhere; in the editor (C61, C65) `str` of a
  leaf and `json.loads` are an arbitrary codec whose laws are hypotheses (`Spec.PythonText`), with a concrete instance.

## 3. Modelled and not modelled

Modelled: every file `pyflowgo/flowgo_*.py` (logger, state, integrator, terrain, lava, air, heat budget,
factory, all vesicle / crystallisation / crust / cover / melt / relative-viscosity / bubble / yield /
flux models), `run_flowgo.py`, `run_flowgo_effusion_rate_array.py`, `main_flowgo.py`, the data part of `run_outs.py` and of
`plot_flowgo_results.py`, the load/save logic of `edit_json.py`, the button handlers of
`main_run_and_plot_flowgo_GUI.py`, the vent helpers of `StartFlowgo`; Python's universal newlines, line iteration, `strip`/`split`,
and CPython's `csv` writer, reader, `DictReader`/`DictWriter` on texts (C73-C75), with `float`/`str` of numbers as an arbitrary codec;
CPython's `json.load` and `json.dump(indent=4)` on texts (C79), which justifies a file store of JSON values elsewhere; the labels of the
curves (C91, C93) and what `main_plot_results_field_data.py` draws; the scripts `main_run_flowgo.py`, `main_plot_flowgo_results.py`,
`main_run_and_plot_flowgo.py` (C103), `Venus/main_flowgo_Venus_Tolba.py` and `MaunaUlu74/main_flowgo_MU74_paper.py` (C104), with the paths
written into them as parameters. Runs and sweeps are also modelled as processes (C107-C111, C114): every opening of a file for reading is one
atomic step that yields the whole text, writing is a truncation followed by any prefixes the buffering chooses and then the whole text,
and each process has a logger of its own.
Not modelled: thread switches inside a constructor, a preparation, a `single_step` or the writing of a file (switches between them are: C120), file systems that reorder writes, drawing itself (axes, limits, titles, image files), the tkinter windows,
`flowgo_crust_temperature_model_hr2001.py` beyond its formula (the factory does not use it), abstract
base classes.

## 4. Plan per property

* **C01** Logger is a last-write-wins map with one row per position. Model/Logger; refinement to the map "last matching call" (Spec/Log), induction over the call list; any value type with lawful ==.
* **C02** Columns returned by get_values are aligned. Corollaries of the same refinement.
* **C03** A freshly constructed runner does not depend on earlier runs. Model/Run: result of construct+run as a function of the previous log; equality for all logs; negation by a concrete two-run history.
* **C04** Writing the results file never fails on a column mismatch. Row-key invariant by induction over steps of the run (Model/Integrator, Model/Csv).
* **C05** The integration loop terminates. Fuelled loop + invariant position = x0+k*dx; show fuel ceil((L-x0)/dx) suffices, at ℝ.
* **C06** Position and time advance exactly as configured. Inversion lemma for an accepted step, then induction over accepted steps.
* **C07** Crystal fraction strictly increases along the flow. Inversion of single_step.
* **C08** Crystallisation and cooling are tied by the crystallisation rate. Inversion of single_step + algebra at ℝ.
* **C09** The core cools on every accepted step when the crystallisation rate is positive. C07+C08, sign reasoning.
* **C10** Crystal budget of the basic crystallisation model. Invariant by induction over accepted steps.
* **C11** Volume conservation. Inversion + field_simp; invariance of effusion_rate by induction.
* **C12** Mass conservation. Same with flux_rate : Option; the None branch is AttributeError.
* **C13** Why a run stopped. Complete case analysis of single_step (iff).
* **C14** A step that stops early does not move the lava. Frame part of the same case analysis.
* **C15** Energy balance of a step. Inversion + algebra.
* **C16** A non-positive heat budget stops the run. Case analysis + sign reasoning.
* **C17** Bingham velocity law: zero exactly at yield, positive before. Factorisation 1-1.5r+0.5r^3 = (r-1)^2(r+2)/2.
* **C18** Velocity decreases with yield strength and viscosity, and has the Newtonian limit. nlinarith on the factorised form.
* **C19** Lava whose yield strength exceeds the basal stress does not move. False: prove the velocity is > 0 for tho_0 > tho_b > 0; partial theorem for tho_0 = tho_b.
* **C20** Velocity iteration always converges within two evaluations. Loop recursion: second iteration sees the same viscosity.
* **C21** compute_mean_velocity stores the strain rate of the velocity it returns and changes nothing else. Unfold; frame.
* **C22** Velocity is reproducible for strain-independent rheologies, not for strain-dependent ones. Strain-independence predicate on models; counterexample in bll.
* **C23** Sub-models only ever change the strain rate of the state. Relation OnlyStrainLog preserved by bind; case analysis over fluxes; induction on the flux list.
* **C24** Within a run every step after the first starts with a moving flow. C13 + C17 applied to the next step.
* **C25** Initial depth search returns the first sufficient grid depth. Induction on the grid list for an arbitrary grid.
* **C26** Zero configured effusion rate leaves everything unchanged. Unfold.
* **C27** Flux grows with depth once the flow moves. Analysis at ℝ, plus witness.
* **C28** Melt viscosity is positive and decreases with temperature. rpow/exp monotonicity.
* **C29** Crystals never thin the lava: relative viscosity >= 1 and increasing in crystal fraction. rpow lemmas per model.
* **C30** The compatibility check protects the viscosity computation. Case analysis per model; boundary witnesses.
* **C31** Bubble models: direction of the effect and the Mader switch. rpow lemmas.
* **C32** BLL model: flow index clamped and final strain-rate check unreachable. Unfold, clamp lemmas.
* **C33** Bulk viscosity is positive whenever it is computed. Positivity of the three factors per model.
* **C34** Yield strength is non-negative and grows with cooling and crystals. exp/rpow monotonicity.
* **C35** Basal shear stress. sin positivity.
* **C36** The yield check is exactly tho_0 >= tho_b. Unfold.
* **C37** A configured vesicle fraction reaches every three-phase model. Factory output inspection; false part by the theorem that the bll yield vesicle is 0.1.
* **C38** Vesicle fractions stay physical. Case analysis.
* **C39** Effective crust cover stays a fraction. exp bounds.
* **C40** Crust temperature of the Hon models decreases with time and needs positive time. log10 monotonicity and domain.
* **C41** Radiative flux law. rpow cancellation.
* **C42** Characteristic surface temperature lies between crust and molten temperature. rpow bounds; negation at equal temperatures.
* **C43** Conductive flux sign and scaling. Algebra.
* **C44** Every heat flux is linear in channel width. Case analysis over fluxes.
* **C45** The heat budget is the sum of its fluxes and the log agrees. Induction on the flux list with strain-independence.
* **C46** Viscous heating warms the lava. Positivity; negation of the expected sign.
* **C47** Effective emissivities stay between the endmembers. polyrith/nlinarith bounds.
* **C48** Flat and uphill samples are dropped from the slope profile. List filter/map.
* **C49** Running mean: window, bounds, identity. List sums; bounds by induction.
* **C50** Slope interpolation. Piecewise-linear interpolation lemmas by induction on the profile.
* **C51** Unknown model names are rejected. Factory inversion.
* **C52** The heat budget contains exactly the activated fluxes. Factory inversion on the switches.
* **C53** Look-up-table models use the configured table. Factory + rate is identically zero; step faults.
* **C54** Parsing of mass_conservation. Case analysis on JSON values.
* **C55** Missing configuration entries never go unnoticed. Monadic inversion: success implies key present.
* **C56** Effusion-rate sweep covers the requested range. Integer range lemmas.
* **C57** Every run of a sweep has its own result file. Injectivity of integer rendering.
* **C58** A sweep leaves the template configuration intact. File-system map model.
* **C59** Run-out distance is the last position reached. Positions increasing; list maximum.
* **C60** Every completed run can be post-processed. Partial-row witness and the positive case.
* **C61** Saving an unedited configuration in the editor changes nothing. Structural induction on JSON trees.
* **C62** MELTS crystallisation rate is the centred difference of the table. Interpolation lemmas.
* **C63** The result shows one row per step, in order, and no row is rewritten. Log shape lemmas by induction on the accepted steps.
* **C64** The result file, read as a table, obeys the conservation laws from row to row. C63 plus the inversion of an accepted step, row by row; sums by induction.
* **C65** A new entry added in the editor is saved in the chosen section and nowhere else. Walk down the section path by induction; witnesses by evaluation.
* **C66** The command-line script and RunFlowgo compute the same result. Model/MainScript; equality of the two preparations under the agreement condition, case analysis on the simulation; witness with a text "true".
* **C67** What plot_all_results draws, and of which results. Model/Plot; DictReader of a written log is the log (C04), column by column; rows of a run from C63; the loop over files by induction.
* **C68** The output of a whole sweep: figures and run-out file. Model/SweepFull on top of C57 (fresh runs), C67 and C60; induction over the rates; complete example from JSON to run-out file.
* **C69** Bimodal crystallisation rates switch once, at the configured distance or temperature. Rate laws by case analysis; rows of the run from C63/C70; the switch row by induction on the number of rows using strict cooling.
* **C70** The result file is the table of an explicit Euler scheme: the meaning of every column. Inversion of an accepted step (every logged cell), C63 for the finality of rows, preservation of the strain rate by every sub-model for strain-independent rheologies, C45 for the flux columns.
* **C71** The heat-flux columns of the result file. Spec/ColumnSpec.lean lists the auxiliary columns of each flux with their values (auxColumns) and the last value written under a name (lastWritten). flux_entries shows each evaluation adds exactly these; induction over the flux list (each flux is evaluated twice), then the row of C70.
* **C72** Spectral radiance. Real analysis on the closed formula of Spec/ColumnSpec.lean; the column of a run by C71.
* **C73** Profile files are read sample by sample. Model/TextFile models universal newlines, line iteration, strip, split and the four reading loops; Spec/TextSpec writes files; induction over the rows.
* **C74** The result file reads back as the log. Model/CsvText models CPython's csv writer and reader state machine; the reader is run as a stream over the written text; induction over fields and records.
* **C75** The run-out figure shows the run-out table. Model/RunOutText: text of the run-out file and the loop reading it back; from C74's reader lemma.
* **C76** Look-up tables mean what their files say. Model/TableText composes the text readers with the table constructors of C13/C14 and the interpolation of Model/Interp. Proof: the constructor is characterised by an iff (length, ascending), the value by the specification Interpolates of C12; the text parts reduce to C73 and to the csv round trip of C74 with the columns located by name.
* **C77** The two buttons of the window do what they report. Model/Gui models both handlers on top of the runner, the sweep with figures (C68) and the plot data (C67). Proof by case analysis of the handlers and the write theorem C04; truncation is specified by |i| <= |x| < |i|+1 and i*x >= 0.
* **C78** Vent lists and per-vent configurations. Model/Vents on top of the csv reader (C74) and the JSON update of C56. Proof: the csv round trip with separator ';', set_spec for the update, and the definition of the result name.
* **C79** Configuration files are read and written faithfully as text. Model/JsonText: CPython's scanner (strings with escapes and surrogate pairs, numbers, arrays, objects, dict of pairs) and encoder with indent=4. Spec/JsonText: the grammar of RFC 8259 as inductive relations, independent of the scanner. Proof: completeness by mutual induction on derivations with an explicit bound on the recursion budget, soundness by induction on the budget, the encoder by mutual induction on values.
* **C80** What an unedited save does to a configuration file, field by field. Model/EditText.lean: Python's str/repr of loaded values (quote choice, escapes), json.loads, and the whole path file text -> widgets -> file text. Spec/EditText.lean: FieldKept, by cases on the value. Proof: the repr of a kept value is a text of the grammar (C79), the repr of any other value makes the scanner fail; then C61_unedited and C79_round_trip.
* **C81** A run from text to text. Model/RunText composes json.load (C79), the slope reader (C73), run (C55, C64) and the csv writer (C74) on a disk of texts; Spec/RunText says what a line shows; proof by composing C79, C55, C73, C64, C63 and C74.
* **C82** What a run depends on and what it changes. Congruence of `prepare`, the factory and `run` in the two file readers of the environment, then the text model of C81; the rerun is the instance of two disks that differ in the written file.
* **C83** Every run ends in finite arithmetic. Model: the generic single_step/run loop instantiated at a number type whose operations round with an arbitrary function (`Model/RoundNum.lean`). Proof: strict growth of the crystal fraction within a finite set; non-vacuity: the double format with saturation.
* **C84** The signs and orders of a run survive rounding. Model: rounded arithmetic. Proof: inversion of single_step for every number type, then monotonicity of the rounding; non-vacuity: a run of 1000 steps computed in doubles.
* **C85** Conservation laws up to a fixed number of roundings. Model: rounded arithmetic. Proof: a calculus of relative errors (`Spec.Close`) applied to the formulas of an accepted step; non-vacuity: 1000 steps with 53 bits.
* **C86** Positions and rows in rounded arithmetic. Model: rounded arithmetic. Proof: induction over the steps; the log lemma of C63 with distinctness from strict growth; non-vacuity: 1000 felt steps from 0 and two absorbed steps at 2^60 m in doubles.
* **C87** Costa relative viscosity: the right fit, total, increasing, past every packing limit. Model/RelVisc costaLaw and Model/CostaSingle; Spec/Laws costa with erf as a Gaussian integral; monotonicity of erf by additivity of the integral, erf <= 1 by the Gaussian integral.
* **C88** Mader relative viscosity: law, regimes, shear thinning. Spec/MaderLaw states equations 46, 49-51; case split on the two switches; rpow monotonicity.
* **C89** An effusion-rate sweep on the texts of the files. Model/SweepText.lean repeats the sweep loop on a disk of texts (json.dump of the working copy, run on texts). Induction over the rates with C79 (round trip of the working copy), C82 (a run depends only on what it reads) gives C89_sweep_on_texts; C57 (distinct names) gives the final contents of the disk.
* **C90** Run-outs computed from the texts of the result files. Model/RunOutsDisk.lean: the loop of run_outs.py on texts. An iff between the model and the declarative RunOutLine (Spec/RunOutsDisk.lean), then induction over the files; composition with C81 for the texts of a run and with C74/C75 for the tables.
* **C91** The figures drawn from the texts of the result files. Model/PlotText.lean repeats the plotting loop on a disk of texts. An iff between the model and the declarative CurvesIn (Spec/PlotText.lean), then induction over the files; composition with C81 for the text of a run.
* **C92** A complete effusion-rate sweep, from texts to figures. Model/SweepFullText.lean composes sweepText, plotAllText, the second reading of the template and getRunOutsText on one disk of texts. C89 (runs), C91 (curves) and C90 (run-outs) are composed; the template after the runs is either untouched or the last working copy.
* **C93** Results drawn among field measurements. Model/FieldPlot.lean models the script on texts (readFieldRow, fieldResult, fieldPoints, fieldLabel, fieldLoop, fieldPlot); Spec/FieldPlot.lean says what is shown. fieldPlot is characterised by an equivalence; composed with C74 (result texts), C81 (runs on texts) and the columns of a run.
* **C94** Entries of the configuration the selected models do not use have no effect. Spec/Relevant.lean lists the used and the idle entries of a selection and says when two configurations agree on them. Each builder is inverted with its C55 equivalence, transported to the other configuration, and the preparation of the run is the same; the rest of run() only depends on the preparation. Lifted to texts with the congruence of C82.
* **C95** What the mass_conservation switch does and does not do. One step is the same with and without the switch when the mass flux is the effusion rate times the density; the depth search establishes this and steps keep it (induction over the loop). Preparations differ only in the switch (C94). The mass law follows from C70 with the mass flux of the depth search (C25).
* **C96** max_channel_length is only a cut-off. Two runs kept alongside one another: states equal but for the length, the clock and the end flag; every model function preserves this relation (the crust models of Hon only if the clocks agree). Induction on the loop with the number of steps left to the shorter end. Preparations differ only in length and time (with C94). The file: writeValues of a prefix of the log is a prefix of the table, its text a prefix of the text.
* **C97** What the configured effusion rate and the configured depth determine. Mirror: if a map of worlds commutes with every query and update of a step, the loop commutes with it (induction on the loop); instances: changing the configured rate, changing the mass flux when mass conservation is off. The strain rate a loop starts with is overwritten by the first velocity. A successful search is characterised by the first depth whose flow reaches the rate (with C25), so it depends on the rate only through that depth and is monotone in it. Preparations differ only in rate, depth and initial strain rate (with C94).
* **C98** Results do not depend on the origin of the position coordinate. Mirror (C97) for the map of worlds that moves the state, the terrain, its profile and the log; the queries of every model commute with it. Splines, the reading of slope file and crust profile, the log and the csv table commute with the move. The configurations are compared entry by entry (with C55 and C94).
* **C99** The result table converges to the flow equations at first order in the step size. C70_euler_table gives the rows as Euler steps; Spec/Converge states the equations; the discrete Groenwall estimate (Proofs/EulerError) bounds the error; Picard-Lindeloef (Mathlib) and an explicit family of runs of every step size (Proofs/FineRun, FineProfile) show that the hypotheses are met.
* **C100** What is left of a result file that was cut off while being written. A file cut at n is one of three kinds (between records, inside a field, inside an end-of-line; Spec/CutSpec); the csv reader is run on each kind (Proofs/CutLemmas).
* **C101** Post-processing never shows a wrong number from a cut result file. C100 gives the shape of the last row; the header of a run is shown to end with tho_0, tho_b (first_row_columns, run_header); the readers of the three tools are shown to accept a cut row only if they give what the complete row gives.
* **C102** A configuration file that was cut off is never mistaken for a configuration. Texts are lists of characters, a cut is `take n`. Bracket counting (Spec/JsonLayout) shows by induction over the grammar that every value text is balanced and that no proper beginning of an object text is; hence no beginning is a JSON text. The programs of the text model (run, sweeps, plots, rewriting, editor) are then evaluated on such a disk.
* **C103** The scripts that run and plot end exactly when the run does, and draw its result or, silently, an older one. Model/Scripts.lean composes the run on texts (C81) with get_file_name_results and the plot on texts (C91). C103_main_run, C103_failures, C103_figure, C103_curves_of_the_run, C103_silent_run, C103_main_plot by inversion of the run (what it can write) and of the plot. Props/Scripts.lean, examples in ScriptsExample.lean.
* **C104** The case studies draw the run and the field data as they are in the files. Model/Scripts.lean: venusScript, maunaUluScript. C104_venus_curves_of_a_text, C104_venus_figure, C104_mauna_ulu_figure, C104_own_result, C104_columns_of_a_run, C104_result_of_a_log, C104_venus_figure_of_a_run, C104_labels, C104_labels_collide. Spec/CaseStudies.lean states curves as columns of the lines; examples in CaseStudiesExample.lean.
* **C105** A wider channel fed proportionally faster carries the same flow. Follows: a second program does in the image of a world what the first does and gives the image of its value (Proofs/Wider.lean); every flux, the budget, the step, the loop and the depth search follow the map that multiplies width, rates and extensive columns. The spectral radiance is affine in the width (C72). Preparation compared entry by entry (C55, C94); the table follows the log.
* **C106** How long and how far a flow can run. From the Euler table (C70): per step the balance of latent heat and heat loss per square metre; summed by induction over the rows; the crystal budget (C10) bounds the growth; the velocity column turns age into distance.
* **C107** Separate processes do not disturb each other. Model/Process: run and sweep as trees of reads and writes; `Prog.run` is proved equal to the text-level functions of C81/C89 (job_solo). Isolation by induction over the schedule; footprints by an invariant along the process (Along).
* **C108** Two sweeps must not share a working copy. Construct the two schedules from the stand-alone behaviour of the pieces (Proofs/Interleave: Reaches, four_turns); the rest of a run after its first look is shown not to depend on the rate it saw except in the name.
* **C109** Interruption at any moment, and starting again. Along-invariants RunMoment and SweepMoment give the disk at every moment; restart by showing that the job reads nothing it may have written (Fresh), so that it acts on the disk of an earlier attempt as on the original one.
* **C110** The same run in several processes at once. Process layer of C107. Compatible (Spec): nobody writes what another reads; common files end up the same. Invariant over schedules: every process is where it is on its own after as many steps; every file is as before, or was last written by a process whose last write it is. At the end the last write of each writer equals its final text.
* **C111** A configuration saved while a run or sweep is reading it. Process layer of C107 plus a saving process. A run looks at its configuration only through json.load, ends at once when that raises, and writes only after its last read (Strict, by induction over the reading programs); C102 (a cut JSON object is no JSON, or the whole object). Invariant of the schedule: the run is where it would be had the whole text been there from the first write of the saver on. The sweep: split the schedule at its first step, then isolation (C107).
* **C112** Numpy scalars do not change a run that is free of exceptions. Numbers that carry the kind (Python float / numpy scalar) and values with signed zeros, infinities and nan (Model/NumpyNum); the relation 'same finite value' (Spec/SameNumbers); a transfer theorem for every function of the model (Proofs/Transfer, TransferRun, TransferConfig), by one class of laws (NumRel), instantiated at rounded arithmetic and at ℝ.
* **C113** A crystallization rate of zero ends the run normally, with infinities and nan in the result. On the numbers of C112: characterise the quotient, then follow one step through the forward lemma of the loop; the end of the run follows from the stop test, which a temperature of -inf fails.
* **C114** Results and working copies that cannot be written. Model/OpenFault.lean: a process on a disk where a given set of names can be opened for writing (Prog.runWhere), the program itself being the one of C107. Spec/OpenFault.lean: files of a folder, the disk with a working copy. The run theorem by cases on what the program does after the preparation, the sweep theorems by induction over the rates before the failing one, the moment of failure by induction over the program, the slash theorem from the injectivity of os.path.join on relative names.
* **C115** Which exception a bad configuration raises. Spec/Diagnosis.lean: the requirements as data (Check, Item, the lists factoryItems, runItems, stateItems), each check with its exception written directly on the JSON value, the diagnosis being the first one that fails. Proofs/Diagnosis.lean: every reader raises what its part of the list says, composed along the factory. Props/Diagnosis.lean: the factory, the run and the converse.
* **C116** A flow does not see the terrain ahead of it. Spec/Ahead.lean: SameUpTo, LooksAhead, Between on the samples as read. Proofs/Mirror.lean (Standing: everything evaluated at one state is preserved by a change of the terrain that keeps the slope at the current position) instantiated in Proofs/Swap.lean with the exchange of the spline; induction over the steps with the set of positions seen. Then the positions seen lie between the start and the end (C07), the end is one step behind a logged row (C63, C06), the profile up to there is determined by the common samples (interpolation and running mean are local).
* **C117** A physically sensible configuration runs to the end without an exception. Spec/Sensible.lean: Sensible (parameters), AtVent (state at the vent), AtPacking; Spec/Template.lean: Physical, one line per entry of the configuration. Proofs/Total.lean: every law is defined on a fit state and the sign of the velocity does not depend on the strain rate; TotalStep.lean: a small total-correctness logic (Runs) for the state monad, through all nine fluxes; TotalRun.lean: a step succeeds, and what it leaves has stopped, is packed or is fit again (the stop tests re-establish the hypotheses); induction over the loop, C05 for the end; TotalSearch.lean: the depth search.
* **C118** A flow that loses more heat is never hotter, never less crystallised and never longer. Spec/Compare states NeverWarms, ColderSlower (one-sided bound on how much slower a colder lava cools) and BothShow. RunTable packages the Euler table of a run (C70) with its end; compare_states is an induction over the rows (discrete comparison principle), the length follows from the stop tests, each monotone in crystals and temperature.
* **C119** Every complete row of the result of a sensible run shows physically possible numbers. Spec/Plausible lists the bounds column by column. Every state from which a step is accepted is fit (C117's invariant; a packed state cannot take a further step); RunTable gives what each column shows; the strain rate is followed through the heat budget; heat > 0 follows from the accepted growth of crystals; the mass flux left by the depth search has the sign of the velocity. The first row exists because neither rejection applies. Example: the shipped template run.
* **C120** Runs in the threads of one process: what they share and what they do not. Model/Threads: a thread as a small state machine over the process (files, log); Spec/Threads: solo, SameOwn, Takes, NoConstructor, OthersQuiet. Proofs/Traced shows function by function that nothing computed in a step reads the log and that the calls of the logger are the same whatever it holds; by induction over the schedule the own state is that of the run alone and the log is a replay. The same-configuration theorem: a step executed again rewrites the cells it wrote, all at one position no other step uses.
* **C121** A flow that is driven harder, or supplied at a larger rate, is nowhere colder, nowhere slower and not shorter. Spec/Stronger (DrivesHarder, LosesNoMore, PerKelvin, ThinnerWhenHotter) and Spec/Everyday (the models, StepIsSmall on the columns of the table). stronger_tables is an induction over the rows of the two tables; per cubic metre carried, the faster channel is narrower and less crusted, so each flux takes no more from it (C121_fluxes), and the mean value theorem bounds what a flux takes more per kelvin (C121_per_kelvin). C121_sensible needs hypotheses on parameters, vent and table only; C121_run adds the depth search (C97).
* **C122** The same lava in harsher surroundings is nowhere hotter, nowhere faster and does not run farther. Spec/Harsher (EqualLava, HarsherFlux, Harsher, LosesMore) and Spec/Surroundings (which entries of a configuration describe the surroundings). C122_loses_more compares the fluxes one by one (monotone in every parameter of the surroundings); harsher_states is an induction over the rows of both tables, using the step condition to keep the order of the temperatures. C122_sensible needs hypotheses on parameters, vent and table only; C122_same_lava shows that two configurations that differ in the surroundings prepare the same lava, channel and vent, and C122_run is the statement on configuration files.
* **C123** In a sweep of effusion rates the run-outs in the run-out table never decrease. Spec/SweepOrder (Flowed: what a run of the sweep must have shown). C121 says that every complete row of the run with the smaller rate is a complete row of the other; Proofs/RunOutOrder turns that into an order of the last rows, and through the slope line chosen by get_run_outs into an order of the rounded run-outs (C123_two_rates). C123_lines applies it to every pair of runs of a sweep; C123_sweep is the statement for the whole call of run_flowgo_effusion_rate_array, C123_run_outs for the sweep followed by get_run_outs (which needs no plots). Props/SweepOrderExample: a sweep of the shipped template with rain over two rates, all hypotheses met. Props/SweepOrderText: C123_two_texts (two runs and the two result texts), C123_run_outs_texts (run_flowgo_effusion_rate_array and get_run_outs on texts: figure and table) and C123_sweep_texts (the complete sweep on texts), via C89/C90/C92; Props/SweepOrderTextExample: the same sweep from text to text.
* **C124** A row of the results is cut short exactly when the lava no longer loses heat, and then the result cannot be post-processed. Props/LastRow. A step of a sensible set-up that loses heat is accepted and writes all columns (losing_heat_grows), one that does not is the last and writes a short row (noGrowth_heat); last_row is the resulting shape of the whole table from C63 and run_table. C124_complete_rows and C124_run state it for a run of a configuration file, C124_post_processing combines it with C60.
* **C125** A small change of the vent state or of the set-up makes a small change of the result table. Spec/Stable (CloseEquations on the flow equations of Spec/Converge, ShownIn). Props/Stable: both tables are Euler tables (run_table); one step multiplies the difference by at most 1 + K dx and adds dx delta (stable_next), and the resulting bound is below the exponential (stable_bound); C125_small_change reads the two logs. Props/StableExample: C125_rain computes the right-hand sides of the rain-cooled flow and gives the constants.
* **C126** The easier the lava flows at the vent, the shallower the channel. Spec/KinderVent.lean says what a kinder vent is. Props/KinderVent.lean: the velocity is monotone in yield strength, viscosity and stress while the lava moves, so the second search stops no later than the first (C126_search); a kinder vent is easier by the monotonicity of C28, C29, C34, C35 (C126_kinder_is_easier); run level by the depth a run shows (C126_run). Props/StuckVent.lean: the counterexample without the last condition (C126_stuck_vent).
* **C127** A flow can be taken up again at any row of its table. Spec/Resume.lean says when a prepared run, and a configuration file, begins where another shows given numbers. Proofs/Resume.lean: a simulation between the two runs that relates worlds with the earlier rows, the step counter, the clock and the effusion rate shifted; it holds of one step whether it is accepted, given up or raises. C127_loop for the step loop (from any row, with any other initial rate), C127_run for prepared runs, C127_config for configuration files. Props/ResumeExample.lean: a configuration with ten rows taken up again at the fourth.
* **C128** Fresher lava keeps its lead. Spec/Fresher.lean orders the two lavas. The comparison of C121 is generalised from equal vents to a difference of crystals that both runs carry along unchanged (their states stay on parallel lines of slope r): C128_hotter, C128_faster, C128_farther for any two channels of which the first drives the lava at least as hard, C128_small_step for the step, C128_sensible for sensible set-ups, C128_run for configuration files; C121 is the case of equal vents. Props/FresherExample.lean: the template under rain with 0.104 and 0.2 of crystals.
* **C129** The command-line script from text to text. Model/MainText.lean: main_flowgo.py on texts. Spec/MainText.lean (SameResultText). C129_same_text from C66 and the JSON reader of C79; C129_names_differ; C129_one_after_the_other with C82. Witness: the disk of C81 on both kinds of platform.
* **C130** The velocity in rounded arithmetic, near the yield point and away from it. Spec/RoundVelocity.lean (PlainNumbers). Proofs/RoundVelocity.lean: absolute error of the bracket, relative error of the prefactor. C130_velocity_error, C130_moves_below_yield, C130_next_step_moves. Proofs/RoundStops.lean evaluates rounding to nearest on a binade; C130_stops_early is the witness in doubles. Non-vacuous: 53 bits, and the thousand-step flow of C84.
* **C131** The table of a run in rounded arithmetic and the table of the exact run. Spec/RoundRun.lean (exactState, GradientsWithin, NumbersWithin), Proofs/RoundRun.lean (one rounded Euler update, rows kept in the log), Props/RoundedRun.lean C131_rounding_error by induction over the steps and the discrete Gronwall bound of C125. Proofs/RoundExact.lean, RoundExactRun.lean and Props/RoundedRunExample.lean: C131_thousand_steps meets every hypothesis with 53 bits.
* **C132** What a table computed in rounded arithmetic says about the flow equations. C132_total_error in Props/RoundedConverge.lean: induction over the steps with the local errors of C99 (euler_local) and C131 (round_next) and the discrete Gronwall bound of C125. C132_thousand_steps in Props/RoundedConvergeExample.lean: the solution by Picard-Lindeloef, all hypotheses met.
* **C133** The three Phan-Thien-Pham viscosity models are ordered, and agree when a phase is missing. Write the logarithms of the three laws in L(x) = -ln(1-x): ptp1 = 5/2 L(phi+v) - 3/2 L(v), ptp2 = L(phi+v)(1 + 3/2 phi/(phi+v)), ptp3 = L(phi+v) + 3/2 L(phi); strict convexity of L gives both inequalities and the cases of equality. The velocity follows from the antitonicity of the Bingham velocity in the viscosity (C20), the channel from C126.
* **C134** Thinner and weaker lava in the same channel is nowhere colder, nowhere slower, and does not stop earlier. Row by row: on the same state the thinner lava is faster (thin_velocity), loses no more heat per cubic metre through each flux (thin_fluxes), and a hotter state stays hotter under a small step (C121's one-sided Lipschitz bound); then the reasons to stop are compared (C13). C134_which_melts, C134_phan_thien_pham (on C133), C134_packing, C134_bubbles and C134_yield name lavas that qualify. Props/Thinner*.lean.
* **C135** On steeper ground the same lava is nowhere colder, nowhere slower, and does not stop earlier. The same proof as C134 (gentler_sensible: induction over the rows with a comparison of hotness, crystals and velocity), with the basal stress of the first ground not smaller wherever the second flow has a row. Order of profiles by induction over the knots of the interpolation, of smoothed profiles by sums over the same windows.
* **C136** Denser lava, and lava that gives off more latent heat, is nowhere colder, nowhere slower, and does not stop earlier. The induction of C134 (gentler_sensible) for a lava of another density and latent heat: the heat lost per cubic metre and metre is nonnegative and not larger for the faster lava, and it is divided by a density times latent heat that is not smaller.
* **C137** The order of the sections and entries of a configuration file does not matter. Spec/Reordered defines rearrangement with List.Perm. A lookup in a list without double keys does not change under a permutation; from this every check of the diagnosis of C115 gives the same exception and every reader the same value, so prepare returns the same result; runs and texts follow as for C94.
* **C138** In a sweep the result of a rate depends neither on the range and step of the sweep nor on the effusion rate in the template. C89 shows that each run of a sweep is the run of the template with its rate, alone on the disk; two templates with the same entries but the rate, given the same rate, look the same to every reader (the lemma behind C137), so the two runs write the same text.
* **C139** The name of the lava, the output folder and the name of the configuration file only decide where the result goes. Spec/Renamed (agreement in all entries but one); every reader of the configuration gives the same on both (one lemma per class), so the preparation differs only in the name; then the run, its text (Props/RunText) and the sweep rate by rate (Props/SweepRange). Props/Renamed, Props/RenamedExample.
* **C140** What counts is the law, not the class: models with two regimes whose regimes are equal give the run of the model with one. Spec/Switched (two configurations apart in one name; when a model has one law along the flow). Proofs/SameLaws: sets of models with the same values in every state give the same step, loop and depth search (extensional congruence). Props/OneRegime: the factory on both configurations gives such sets or the same exception; chains by induction; texts by Props/RunText. Props/OneRegimeExample: a complete run with three models exchanged.
* **C141** The second regime has no effect on a flow that does not get there. Spec/SecondRegime (which entries may differ; models that are the same up to a place). Proofs/LawsUpTo: a step from a position up to there is the same. Props/SecondRegime: the loop by induction with the positions a completed run sees (C116), the factory on both configurations, run. Props/SecondRegimeExample: a complete run up to exactly the critical distance.

## 5. Findings and status

Status per property is in MANIFEST.json. Expectations a user has that the code does not meet; each is proved as the
negation or by a witness, next to what does hold:

* **C03** a runner reused for a second configuration appends to the first one's log, and can fail when writing.
* **C19** lava whose yield strength exceeds the basal stress is given a positive velocity, growing without bound.
* **C20/C22** the velocity loop always stops at its second pass because the state's strain rate is only updated after it; with a
  strain-dependent rheology the result is not self-consistent (a second call differs by more than 10 % in the witness).
* **C27** the depth search can accept a depth at which the lava does not move.
* **C30** the compatibility checks of most viscosity models accept states on which the viscosity cannot be computed.
* **C37** the bll yield-strength model ignores the configured vesicle fraction.
* **C42** the characteristic surface temperature is not bounded by its two temperatures; a uniform surface is cooled.
* **C45** the Snyder flux overwrites the columns of radiation; with strain-dependent lava the logged cover differs from the used one.
* **C46** viscous heating is added to the losses: it cools the lava.
* **C50** beyond the last sample the slope is extrapolated and can be negative.
* **C53** the factory never loads the MELTS table: the rate is 0 and the first moving step divides by zero (with
  `effusion_rate_init` 0; otherwise C113); the field crust model reads a fixed file.
* **C56/C58** a sweep overshoots its upper bound, and rewrites the template when the results folder is the template's.
* **C59/C60** the run-out can lie beyond the last position; results with a single row or a partial last row cannot be processed.
* **C61/C65** saving in the editor turns booleans into texts (switching slope smoothing off); new entries can be lost, duplicated or make
  the save fail.
* **C66** `"mass_conservation": "true"` (a text) switches mass conservation on in RunFlowgo and leaves it off in main_flowgo.py.
* **C67** the first row of a result (the vent) is never drawn; a result with fewer than three rows, with a partial last row, or of a run
  with neither forced convection nor the Snyder flux cannot be drawn at all (`qsnyder` is unbound).
* **C68** one result that cannot be drawn loses the figures and the run-out file of the whole sweep; a run that logged nothing is
  replaced by an older result file of the same name; an empty range of rates raises UnboundLocalError.
* **C72** the two temperature-dependent emissivity classes use a pixel of 0.1 m: every channel wider than 10 cm covers more than the
  whole pixel, the background share is negative, and the spectral radiance can be negative.
* **C73** a blank line in a slope file, also a trailing one, is an IndexError; lines with a slope up to 0.1 are dropped without looking at
  their other columns by the terrain, but parsed by the run-out table and the plots.
* **C74** a carriage return inside a csv field comes back as a line feed; on Windows an empty record follows every record
  (harmless for `DictReader`).
* **C77** the window cuts the rates off towards zero (5.9 becomes 5); a step between -1 and 1 becomes 0 and ends in an uncaught
  ValueError; after a run that logged nothing an older result of the same name is shown as if it were the new one.
* **C80** a list of texts comes back from the editor as one text (`"['a', 'b']"`), a non-finite number as `"nan"`, and a text that
  happens to be JSON (`"true"`, `"5"`, `"null"`) as that value.
* **C86** the row of a step is found by float equality of positions: where position + dx rounds to position, the steps overwrite one row.
* **C91/C92** a folder whose path contains the prefix again mislabels a curve; a run that writes nothing is represented by a stale result.
* **C93** `.strip(".csv")` in the field-data script strips characters, not a suffix: `…_10m3s.csv` is labelled `…_10m3`, and
  `etna_v.csv` and `etna_s.csv` share a label; the `slope_file` of the configuration is read and not used; without a result the
  script fails on an unbound name after having read everything.
* **C94** `max_packing`, `crust_temperature` (hon) and `crust_temperature_1` (bimodal) must be present but are ignored by most
  selections; the values of `melts_look-up_table` and `crust_temperature_file` are never used.
* **C95** with mass conservation the column `effusion_rate` is not the volume flux of the row, and the energy balance divides by
  `effusion_rate` times the local density instead of the conserved mass flux: heat and mass are accounted for inconsistently as soon as
  the density varies.
* **C96** the first step is taken (and logged) even if the vent lies at or beyond `max_channel_length`; `lava_state.time` has no effect on
  any column unless the crust model is `hon` or `bimodal`.
* **C97** with an effusion rate other than zero the configured `depth` is ignored, but it must be there and 0 is a ZeroDivisionError; the
  rate acts only through the depth it selects on the millimetre grid, so results are a step function of the rate and two rates that
  select the same depth give identical tables.
* **C98** the vesicle laws `variable`, `variable_bimodal` and `poly` take the coordinate, not the distance from the vent: with a vent whose
  `position` is not 0 the vesicle fraction at the vent is not the configured `vesicle_fraction`.
* **C100/C101** a result file that was cut off in the middle of a number is read without complaint, the rest of the number being taken for
  its value (1234 cut to 12); the package's own tools are safe only because `tho_0` and `tho_b` happen to be the last columns and are
  read from every row, into lists that are not used (`tho_b` by the plots, `tho_0` by the run-out table).
* **C103** `main_run_and_plot_flowgo.py` draws an older result of the same name, without a word, when the run logged nothing.
* **C104** `.strip("results/results_flowgo_")` takes characters, not a prefix, off both ends: `template_…` is labelled `mplate_…`, and the
  lavas `etna` and `na` share a label; the run-out marks of the Venus figure are as high as the curves of the result compared with. Both
  scripts import `run_flowgo`, which is only found from inside the package directory (not modelled).
* **C108** a run opens its configuration a dozen times and takes the rate in the name of its result from the first look, the rate it
  computes with from later ones; two sweeps that share a results folder share the working copy, so that a result can be missing, or can
  hold the table of another rate, although both end normally.
* **C109** an interrupted run leaves a truncated result under the final name (no temporary file, no renaming); C100 says what readers
  make of it.
* **C111** configurations are overwritten in place: a run that starts while its configuration is being saved fails with a ValueError
  (`JSONDecodeError`), or computes with some entries of the old and some of the new configuration.
* **C113** with a depth found by `init_effusion_rate` (a numpy scalar) a crystallization rate of 0 does not raise: the last row holds
  `dtemp_dx = -inf`, `dphi_dx = nan`, and the run ends as if the lava had stopped; "melts", whose table is never loaded, has the rate -0.0
  and heats the lava to +inf.
* **C114** no folder is created by a run or a sweep: a missing results folder is noticed only after the whole flow has been computed, and
  the results are lost; a `lava_name` with a `/` in it sends the results to a sub-folder nobody creates.
* **C115** the same mistake, a missing entry, is a KeyError, a ValueError or (for names) a NameError depending on the reader; the slope
  profile is opened and interpolated before a misspelt model name is noticed; where presence is tested with `in`, a section that is a
  text mentioning the key passes the test and fails one line later with a TypeError.
* **C116** samples of 0.1 degree or less are dropped, not levelled: the slope across a flat stretch or a counter-slope is interpolated
  between the downhill samples on both sides, so a dip or an obstacle of any length in the profile has no effect on the flow at all.
* **C117** with sensible numbers a run can still raise: a step that lands exactly on the packing limit of the kd, mp, mueller, ptp or bll law
  passes the program's own compatibility check (`>` instead of `>=`) and divides by zero in the next step; the rows computed so far are lost
  because the result file is only written at the end. A vent on level ground raises as well (division by the basal stress 0).
* **C118** Switching on viscous heating shortens a modelled flow: the program counts it as a loss (C46), and every extra loss makes the flow
  colder, more crystallised and not longer. The opposite of the physics.
* **C120** `FlowGoLogger` is a singleton and `RunFlowgo()` clears it. Two simulations in threads of one process therefore destroy each other's
  results without an error: constructing a second runner empties the log of the first, which then writes a file that begins somewhere down the
  flow, or no file at all, and returns normally; rows of both runs end up in both files; or both raise ValueError in the CSV writer.
* **C121** the monotone dependence on the effusion rate is proved for steps that are small compared with `velocity * depth`: with the numbers of the
  template and `step_size` 10 the condition reads roughly `velocity * depth >= 0.004` square metres per second at every row. A flow that creeps more slowly
  than that near its front is outside the theorem, and there the explicit step may overshoot.
* **C122** more crust insulates: a flow with a hotter or less extended crust counts as the one in harsher surroundings, because crust is colder than the
  molten core. The comparison holds for the surroundings that the program reads from the file; nothing in the program couples wind or rain to the crust.
* **C123** the run-out of a sweep line is read from the slope file, at the last line not beyond the last position plus the second one (C59): when the flows of two rates stop between the same two
  lines of the slope file they get the same run-out, so "never decreases" is all that can be claimed, even for runs whose lengths differ.
* **C124** a flow that stops because its heat budget is no longer positive (rain off, much viscous heating, say) writes a last row without the rheological columns, and
  `get_run_outs` then fails on a result file that the run itself wrote without a complaint.
* **C125** the bound grows with `exp (K x)`; where the velocity falls towards zero near the front, `K` (which contains `1/velocity`) grows without bound, so that small changes of the input
  may still move the front by a lot. No theorem here says how the run-out depends on a small change; C121 and C122 only say in which direction.
* **C126** the depth search takes the first depth whose discharge reaches the effusion rate, without asking whether the lava moves at that depth. Lava that is stuck in a shallow channel
  (yield strength above the basal stress) gets a positive velocity from the formula, and the stiffer it is the larger: such lava is given the shallowest channel of the grid (1 cm), and doubling gravity makes
  the channel deeper (`C126_stuck_vent`). The stop test only catches such lava after the first step.
* **C127** a flow remembers no more than a row of its table shows, but a restart needs care: melt viscosity `basic` and yield strength `basic` measure cooling from `eruption_temperature`, which is also the
  temperature at which lava leaves the vent, so with these models a flow cannot be configured to go on where another is; with crystallisation `basic` `crystals_grown_during_cooling` has to be scaled by
  (T − solid)/(eruption − solid); crust `hon` and `bimodal` read the time since the eruption; under mass conservation the mass flux is fixed by the density at the vent, so a lava whose vesicularity has
  changed carries another flux after the restart.
* **C128** with the effusion rate left open, fewer crystals or hotter lava at the vent helps all along the flow. With a given effusion rate it need not: the depth search gives thinner lava a shallower
  channel (C126), and a shallower channel cools faster, so C128 claims nothing there.
* **C129** the script and the runner write the same text under different names; nothing but the name tells the two apart.
* **C130** the velocity formula 1 − 3/2 r + 1/2 r³ cancels near r = tho_0/tho_b = 1: it is (1 − r)²(1 + r/2), but the code adds the three terms, so the computed velocity carries an absolute error of about
  12 roundings of the Newtonian velocity and in doubles can be 0 (or negative) although tho_0 < tho_b. The run then ends as if the velocity were zero. Only flows whose yield strength agrees with the basal
  stress to 3e-8 are concerned; the factored form would not have the problem.
* **C131** no defect: in a region where the flow equations are Lipschitz, rounding errors grow no faster than the equations themselves spread; a thousand steps in 53 bits stay within 1e-9 of exact
  arithmetic. The bound needs positions the format represents (dx = 10 m or 0.5 m, not 0.1 m): otherwise the rows of the two tables are not at the same positions (C84).
* **C132** no defect: discretisation error (order dx) and rounding error (order u/dx) only add up; in doubles the second is below 1e-9 for any usable step size.
* **C133** no defect: ptp3 ≤ ptp2 ≤ ptp1, with equality exactly when a phase is missing. ptp2 divides by the sum of both fractions and raises on lava without crystals and bubbles (C29), where the
  other two give 1; with crystals only all three lack the factor 1.51 of Einstein and Roscoe.
* **C134** no defect: in a channel of configured depth a thinner or weaker lava is hotter, faster and goes at least as far. For a configured effusion rate the comparison does not follow: the thinner lava then
  also gets a shallower channel (C133, C119), which cools it more per cubic metre.
* **C135** no defect: steeper ground or stronger gravity makes a lava in a channel of configured depth hotter, faster and longer. Slope samples at the same distances are ordered only as far as they
  reach: beyond the last sample the last line is continued (C50), and there the steeper file can give the smaller slope, even an uphill one.
* **C136** no defect: more density or more latent heat makes a lava in a channel of configured depth hotter, faster and longer. The heat capacity of the lava does not enter the equations at all: the only
  heat a flow can give off is the latent heat of its crystals.
* **C137** no defect: no reader depends on the order of sections or entries, and neither does the exception raised for an incomplete file. Only the order inside an object given as lava_name or
  effusion_rate_init would show, in the name of the result file.
* **C138** no defect: what a sweep writes for a rate is what any other sweep of the same template writes for it. The effusion rate in the template has no influence on a sweep.

## 6. Axioms of each theorem

Generated by tools/axioms.py from `#print axioms`.

* **Quot.sound** (1 theorems): C56_ok

* **none** (5 theorems): C01_position_name_renames_row, C21_only_strain_changes, C26_zero_rate_changes_nothing, C61_which_fields_survive, C74_carriage_return_is_lost

* **propext** (1 theorems): C56_zero_step

* **propext, Classical.choice, Quot.sound** (583 theorems): C01_csv_rows_are_the_log, C01_logger_last_write_wins, C02_columns_aligned, C03_fresh_log_is_a_history, C03_fresh_runner, C03_history_invisible, C03_reuse_can_fail, C03_reuse_keeps_old_rows, C03_run_extends_the_log, C04_columns, C04_run_writes, C04_write_never_fails, C05_bound, C05_bound_attained, C05_budget_irrelevant, C05_terminates, C06_position_time, C06_run_shape, C06_strictly_increasing, C07_crystals_increase, C07_crystals_increase_run, C07_grow_or_stop, C08_crystallisation_tied_to_cooling, C09_core_cools, C100_column, C100_cut_file, C100_cut_result, C100_wrong_number, C101_cut_results_are_safe, C101_killed_run, C102_cut_configuration, C102_cut_dump, C102_cut_written_file, C102_nothing_happens, C103_curves_of_the_run, C103_failures, C103_figure, C103_main_plot, C103_main_run, C103_not_an_object, C103_silent_run, C104_columns_of_a_run, C104_labels, C104_labels_collide, C104_mauna_ulu_figure, C104_own_result, C104_result_of_a_log, C104_venus_curves_of_a_text, C104_venus_figure, C104_venus_figure_of_a_run, C105_radiance_is_not_proportional, C105_shown, C105_wider_channel, C106_heat_account, C106_lifetime, C106_mass_account, C106_mass_lifetime, C106_radiating_flow, C106_run_out_bound, C107_every_schedule, C107_everyone_ends, C107_order_does_not_matter, C107_other_files, C107_run_touches, C107_separate_files, C107_sweep_touches, C108_two_sweeps_one_folder, C109_results_after_interruption, C109_run_again, C109_run_interrupted, C109_sweep_again, C109_sweep_interrupted, C10_crystal_bound, C10_crystal_budget, C110_files, C110_many_times, C110_outcomes, C111_caught_empty, C111_saved_during_a_run, C111_saved_during_a_sweep, C111_the_save_is_complete, C112_only_where_floats_fault, C112_program, C112_run, C112_run_exact, C112_simulation, C112_step, C113_division, C113_melts, C113_run_ends, C113_velocity_is_a_number, C113_zero_rate, C114_everything_writable, C114_moment_of_failure, C114_run, C114_slash, C114_sweep_result, C114_sweep_working, C115_factory, C115_refused, C115_run, C116_flat_samples, C116_inserted_sample, C116_only_visited_positions, C116_same_slopes, C116_terrain_ahead, C117_depth_search, C117_loop, C117_never_raises, C117_packed_raises, C117_run_completes, C117_sensible_rates, C117_sensible_vesicles, C117_shipped_template, C117_single_step, C117_template_completes, C117_template_sensible, C118_colder, C118_never_warms, C118_shorter, C119_first_row, C119_loop, C119_run, C119_simulation, C119_template, C11_constant_effusion_rate, C11_volume_conservation, C120_alone, C120_both_can_be_wrong, C120_both_can_fail, C120_can_lose_the_file, C120_every_accepted_row, C120_mixed, C120_mixed_runs, C120_no_file, C120_one_after_the_other, C120_private, C120_raises, C120_rows_of_all, C120_rows_since_the_last_constructor, C120_rows_stay, C120_same_configuration, C120_undisturbed, C121_channels, C121_farther, C121_faster, C121_fluxes, C121_hotter, C121_larger_rate, C121_per_kelvin, C121_run, C121_sensible, C121_small_step, C121_thinner, C122_colder, C122_loses_more, C122_run, C122_same_lava, C122_sensible, C122_shorter, C122_slower, C123_lines, C123_run_outs, C123_run_outs_texts, C123_sweep, C123_sweep_texts, C123_two_rates, C123_two_texts, C124_complete_rows, C124_loop, C124_post_processing, C124_run, C125_rain, C125_small_change, C126_kinder_is_easier, C126_run, C126_search, C126_stuck_vent, C127_config, C127_loop, C127_run, C128_farther, C128_faster, C128_hotter, C128_run, C128_sensible, C128_small_step, C129_names_differ, C129_one_after_the_other, C129_same_text, C12_attribute_error, C12_mass_conservation, C12_zero_rate_has_no_flux, C130_moves_below_yield, C130_next_step_moves, C130_stops_early, C130_velocity_error, C131_rounding_error, C131_thousand_steps, C132_thousand_steps, C132_total_error, C133_channel, C133_one_phase, C133_order, C133_velocity, C134_bubbles, C134_melt, C134_packing, C134_phan_thien_pham, C134_run, C134_sensible, C134_which_melts, C134_yield, C135_gravity, C135_profiles, C135_run, C135_sensible, C136_run, C136_sensible, C136_together, C137_preparation, C137_run, C137_text, C138_rate, C139_preparation, C139_run, C139_sweep, C139_text, C13_accepted_reason, C13_rejected_reason, C13_solidus_is_configured, C13_step_ends_iff, C13_still_lava_ends_the_run, C13_why_a_run_stopped, C140_cover, C140_crystallisation, C140_even_vesicles, C140_models, C140_text, C140_vesicles, C141_second_regime, C141_simulation, C14_rejected_step_moves_nothing, C15_energy_balance, C16_accepted_iff_heat_loss, C17_velocity_is_bingham, C17_zero_exactly_at_yield, C18_velocity_monotone, C19_unbounded, C19_witness, C19_yield_above_stress_still_moves, C20_never_fails_to_converge, C20_one_pass_not_enough, C20_two_passes_suffice, C21_strain_of_velocity, C22_strain_dependent_not_reproducible, C22_strain_free_reproducible, C24_next_step_moves, C25_first_sufficient_depth, C25_no_error, C25_smallest_sufficient_depth, C26_first_step_sets_rate, C27_flux_monotone_in_depth, C27_search_accepts_immobile_depth, C27_threshold, C28_melt_decreasing, C28_melt_laws, C28_melt_positive, C29_at_least_one, C29_increasing_in_crystals, C29_relative_viscosity_laws, C30_accepted_fails_exactly_at_packing, C30_bll_fails_exactly_at_phimax, C30_check_is_packing, C30_costa_accepts_everything, C30_er_check_is_exact, C30_mader_beyond_packing, C30_mader_check, C30_mader_needs_strain, C30_ptp2_fails_on_pure_melt, C31_bubble_laws, C31_direction, C31_limits, C31_mader_switch, C32_bll_index, C32_bll_infinite_iff, C32_bll_law, C32_bll_no_valueError, C33_bulk_is_product, C33_bulk_positive, C34_yield_grows, C34_yield_laws, C34_yield_nonneg, C35_basal_stress_law, C35_basal_stress_positive_linear, C36_same_numbers_as_velocity, C36_yield_check, C37_bll_yield_ignores_vesicles, C37_bll_yield_is_wrong, C37_vesicles_shared, C38_density, C38_nonneg_except_variable_bimodal, C38_variable_bimodal_goes_negative, C38_vesicle_laws, C39_api_is_fraction, C39_basic_is_fraction, C39_bimodal_switch, C39_cover_law, C40_hon_decreasing, C40_hon_error, C40_hon_law, C40_other_models, C41_basic_law_any_lava, C41_nonneg, C41_radiative_flux_law, C42_convective_flux, C42_uniform_surface_flux, C42_uniform_surface_is_cooled, C43_conductive_error, C43_conductive_flux, C43_sign_and_scaling, C44_linear_in_width, C44_rain_is_constant, C45_budget_is_sum, C45_log_agrees, C45_snyder_overwrites, C45_standard_lists_keep_columns, C45_strain_dependent_log_differs, C45_sublists_keep_columns, C46_step_with_viscous_heating_is_colder, C46_viscous_heating_is_a_loss, C47_linear_range, C47_logged_emissivity, C47_mix_between, C47_quadratic_in_range, C48_errors, C48_read_slope, C48_rows_kept, C49_between_samples, C49_constant_fixed, C49_even_uses_one_more, C49_negative_points, C49_running_mean, C49_small_window_identity, C50_at_samples, C50_between_neighbours, C50_extrapolates, C50_inside_positive, C50_interpolation, C50_negative_beyond_profile, C51_success_means_documented, C51_unknown_is_NameError, C51_unknown_refused, C52_columns_kept, C52_exactly_the_requested_fluxes, C52_logged_budget_adds_up, C53_field_uses_fixed_file, C53_melts_divides_by_zero, C53_melts_has_no_table, C53_melts_never_advances, C53_melts_run_is_empty, C54_in_configuration, C54_mass_conservation, C54_missing_is_off, C55_missing_entry_refused, C55_models_come_from_the_configuration, C55_required_entries, C55_run_missing_entry, C55_run_refuses_without_effect, C55_run_starts_from_the_configuration, C55_sufficient_entries, C56_down, C56_empty, C56_exact, C56_overshoot, C56_rates, C57_get_file_name_results, C57_names_distinct, C57_sweep_is_fresh_runs, C57_sweep_names, C57_sweep_run_file, C58_only_the_working_copy, C58_same_folder, C58_template_overwritten, C58_working_copy, C59_largest_position_is_last, C59_line_shows, C59_overshoot, C59_run_out_bounds, C59_run_out_line, C59_run_out_of_a_run, C60_one_row_fails, C60_partial_row_fails, C60_post_processing_works_iff, C60_run_can_be_post_processed, C61_colliding_names, C61_edit_one_field, C61_field_after_save, C61_mass_conservation_kept, C61_no_such_field, C61_smoothing_example, C61_smoothing_switched_off, C61_unchanged_iff, C61_unedited, C62_centred_difference, C62_no_table, C62_rate_nonneg, C62_segment_slope, C62_table_accepted, C63_positions, C63_rows, C63_rows_are_final, C63_rows_are_final_end, C63_rows_cases, C64_integrated, C64_table, C65_dotted_section_loses_entry, C65_new_entry, C65_repeated_section_gets_entry_too, C65_save_fails, C65_text_in_the_way, C66_readings_differ, C66_same_as_runner, C66_text_true_differs, C67_curves, C67_failures, C67_files, C67_run_can_be_drawn, C67_run_failures, C67_source_is_not_drawn, C68_empty_sweep, C68_one_bad_run, C68_silent_run, C68_sweep_output, C69_distance_law, C69_distance_table, C69_temperature_law, C69_temperature_table, C70_euler_table, C71_budget_columns, C71_column_of_a_flux, C71_flux_columns, C72_crust_is_darker, C72_hotter_is_brighter, C72_negative_radiance, C72_planck_increasing, C72_planck_pos, C72_radiance_column, C72_radiance_pos, C72_shares, C73_crust_profile, C73_profile_reads_back, C73_same_samples, C73_slope_failures, C73_terrain_failures, C73_trailing_blank_line, C74_columns, C74_result_file, C75_get_run_outs, C75_no_lines_no_figure, C75_run_out_figure, C75_run_out_table, C76_crust_file, C76_field_crust, C76_field_without_profile, C76_melts_file, C77_failed_figures_keep_the_result, C77_failed_run, C77_file_name, C77_fractional_step, C77_missing_path, C77_not_numeric, C77_single_shows_the_run, C77_sweep_of_whole_numbers, C78_new_json, C78_no_flow_id, C78_ragged_lines, C78_result_named_after_vent, C78_vent_list, C79_indented, C79_line_endings, C79_load_is_the_grammar, C79_loaded_keys_distinct, C79_other_texts_refused, C79_rewrite_succeeds, C79_rewritten_file, C79_round_trip, C79_unambiguous, C79_written_in_ascii, C79_written_text, C80_codec_is_python, C80_saved_file, C80_second_save_changes_nothing, C80_shown_text, C80_what_becomes_of_the_others, C80_which_fields_are_kept, C81_run_on_texts, C82_bad_configuration, C82_disk_grows_by_one_file, C82_inputs_determine_result, C82_name_of_the_result, C82_rerun, C83_bound, C83_every_run_ends, C84_heat_positive, C84_monotone, C84_no_warming, C84_velocity_converges, C84_velocity_positive, C84_velocity_two_passes, C85_energy, C85_mass, C85_relative_error, C85_rows_agree, C85_volume, C86_absorbed_step, C86_position_drift, C86_row_per_step, C86_step_is_felt, C87_costa_bounded, C87_costa_increasing, C87_costa_laws, C87_costa_pure_melt, C87_costa_reads_crystals_only, C87_costa_single_none, C87_costa_total, C88_mader_increasing, C88_mader_law, C88_mader_newtonian, C88_mader_thinner_than_melt, C88_mader_thins, C89_other_files_untouched, C89_results_on_disk, C89_sweep_on_texts, C89_template_kept, C90_complete_result_is_reported, C90_get_run_outs, C90_only_if, C90_run_out_of_a_run, C90_run_out_of_a_text, C90_stops_at_first_failure, C91_complete_result_is_drawn, C91_curves_of_a_text, C91_figure_of_a_run, C91_label, C91_label_of_a_result, C91_labels_distinct, C91_plot_all_results, C91_result_of_a_log, C92_complete_sweep, C92_results_survive, C92_sweep_completes, C93_columns_of_a_run, C93_curves_of_a_text, C93_field_figure, C93_figure_of_a_run, C93_label_of_a_result, C93_labels_collide, C93_labels_distinct, C93_result_of_a_log, C94_same_preparation, C94_unused_entries_are_irrelevant, C94_unused_entries_on_texts, C95_mass_flux_of_a_run, C95_switch_without_effect, C96_max_channel_length, C96_other_endings, C96_result_file_is_a_beginning, C96_shorter_channel, C97_configured_depth, C97_deeper_channel, C97_depth_has_no_effect, C97_larger_rate, C97_program_depths, C97_same_channel_depth, C97_same_depth, C97_without_rate, C97_zero_rate, C98_origin_has_no_effect, C98_variable_vesicles_see_the_origin, C99_first_order, C99_refinement_converges, C99_two_steps

* **propext, Quot.sound** (12 theorems): C22_which_models_are_strain_independent, C23_cover_frame, C23_flux_frame, C23_heat_budget_frame, C73_crust_failures, C73_plot_failures, C73_profile_lines, C73_short_line_is_fatal, C74_any_text_is_readable, C74_csv_reads_back, C78_new_json_ok, C87_costa_single_class

