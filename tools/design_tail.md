## 5. Findings and status

Status per property is in MANIFEST.json. Expectations a user has that the code does not meet; each is proved as the
negation or by a witness, next to what does hold:

* **C03** a runner reused for a second configuration appends to the first one's log, and can fail when writing.
* **C19** lava whose yield strength exceeds the basal stress is given a positive velocity, growing without bound.
* **C20/C22** the velocity loop always stops at its second pass because the state's strain rate is only updated after it; with a
  strain-dependent rheology the result is not self-consistent (a second call differs by more than 10 % in the witness).
* **C27** the depth search can accept a depth at which the lava does not move.
* **C30** the compatibility checks of most viscosity models accept states on which the viscosity cannot be computed.
* **C37** the bll yield-strength model ignores the configured vesicle fraction.
* **C42** the characteristic surface temperature is not bounded by its two temperatures; a uniform surface is cooled.
* **C45** the Snyder flux overwrites the columns of radiation; with strain-dependent lava the logged cover differs from the used one.
* **C46** viscous heating is added to the losses: it cools the lava.
* **C50** beyond the last sample the slope is extrapolated and can be negative.
* **C53** the factory never loads the MELTS table: the rate is 0 and the first moving step divides by zero (with
  `effusion_rate_init` 0; otherwise C113); the field crust model reads a fixed file.
* **C56/C58** a sweep overshoots its upper bound, and rewrites the template when the results folder is the template's.
* **C59/C60** the run-out can lie beyond the last position; results with a single row or a partial last row cannot be processed.
* **C61/C65** saving in the editor turns booleans into texts (switching slope smoothing off); new entries can be lost, duplicated or make
  the save fail.
* **C66** `"mass_conservation": "true"` (a text) switches mass conservation on in RunFlowgo and leaves it off in main_flowgo.py.
* **C67** the first row of a result (the vent) is never drawn; a result with fewer than three rows, with a partial last row, or of a run
  with neither forced convection nor the Snyder flux cannot be drawn at all (`qsnyder` is unbound).
* **C68** one result that cannot be drawn loses the figures and the run-out file of the whole sweep; a run that logged nothing is
  replaced by an older result file of the same name; an empty range of rates raises UnboundLocalError.
* **C72** the two temperature-dependent emissivity classes use a pixel of 0.1 m: every channel wider than 10 cm covers more than the
  whole pixel, the background share is negative, and the spectral radiance can be negative.
* **C73** a blank line in a slope file, also a trailing one, is an IndexError; lines with a slope up to 0.1 are dropped without looking at
  their other columns by the terrain, but parsed by the run-out table and the plots.
* **C74** a carriage return inside a csv field comes back as a line feed; on Windows an empty record follows every record
  (harmless for `DictReader`).
* **C77** the window cuts the rates off towards zero (5.9 becomes 5); a step between -1 and 1 becomes 0 and ends in an uncaught
  ValueError; after a run that logged nothing an older result of the same name is shown as if it were the new one.
* **C80** a list of texts comes back from the editor as one text (`"['a', 'b']"`), a non-finite number as `"nan"`, and a text that
  happens to be JSON (`"true"`, `"5"`, `"null"`) as that value.
* **C86** the row of a step is found by float equality of positions: where position + dx rounds to position, the steps overwrite one row.
* **C91/C92** a folder whose path contains the prefix again mislabels a curve; a run that writes nothing is represented by a stale result.
* **C93** `.strip(".csv")` in the field-data script strips characters, not a suffix: `…_10m3s.csv` is labelled `…_10m3`, and
  `etna_v.csv` and `etna_s.csv` share a label; the `slope_file` of the configuration is read and not used; without a result the
  script fails on an unbound name after having read everything.
* **C94** `max_packing`, `crust_temperature` (hon) and `crust_temperature_1` (bimodal) must be present but are ignored by most
  selections; the values of `melts_look-up_table` and `crust_temperature_file` are never used.
* **C95** with mass conservation the column `effusion_rate` is not the volume flux of the row, and the energy balance divides by
  `effusion_rate` times the local density instead of the conserved mass flux: heat and mass are accounted for inconsistently as soon as
  the density varies.
* **C96** the first step is taken (and logged) even if the vent lies at or beyond `max_channel_length`; `lava_state.time` has no effect on
  any column unless the crust model is `hon` or `bimodal`.
* **C97** with an effusion rate other than zero the configured `depth` is ignored, but it must be there and 0 is a ZeroDivisionError; the
  rate acts only through the depth it selects on the millimetre grid, so results are a step function of the rate and two rates that
  select the same depth give identical tables.
* **C98** the vesicle laws `variable`, `variable_bimodal` and `poly` take the coordinate, not the distance from the vent: with a vent whose
  `position` is not 0 the vesicle fraction at the vent is not the configured `vesicle_fraction`.
* **C100/C101** a result file that was cut off in the middle of a number is read without complaint, the rest of the number being taken for
  its value (1234 cut to 12); the package's own tools are safe only because `tho_0` and `tho_b` happen to be the last columns and are
  read from every row, into lists that are not used (`tho_b` by the plots, `tho_0` by the run-out table).
* **C103** `main_run_and_plot_flowgo.py` draws an older result of the same name, without a word, when the run logged nothing.
* **C104** `.strip("results/results_flowgo_")` takes characters, not a prefix, off both ends: `template_…` is labelled `mplate_…`, and the
  lavas `etna` and `na` share a label; the run-out marks of the Venus figure are as high as the curves of the result compared with. Both
  scripts import `run_flowgo`, which is only found from inside the package directory (not modelled).
* **C108** a run opens its configuration a dozen times and takes the rate in the name of its result from the first look, the rate it
  computes with from later ones; two sweeps that share a results folder share the working copy, so that a result can be missing, or can
  hold the table of another rate, although both end normally.
* **C109** an interrupted run leaves a truncated result under the final name (no temporary file, no renaming); C100 says what readers
  make of it.
* **C111** configurations are overwritten in place: a run that starts while its configuration is being saved fails with a ValueError
  (`JSONDecodeError`), or computes with some entries of the old and some of the new configuration.
* **C113** with a depth found by `init_effusion_rate` (a numpy scalar) a crystallization rate of 0 does not raise: the last row holds
  `dtemp_dx = -inf`, `dphi_dx = nan`, and the run ends as if the lava had stopped; "melts", whose table is never loaded, has the rate -0.0
  and heats the lava to +inf.
* **C114** no folder is created by a run or a sweep: a missing results folder is noticed only after the whole flow has been computed, and
  the results are lost; a `lava_name` with a `/` in it sends the results to a sub-folder nobody creates.
* **C115** the same mistake, a missing entry, is a KeyError, a ValueError or (for names) a NameError depending on the reader; the slope
  profile is opened and interpolated before a misspelt model name is noticed; where presence is tested with `in`, a section that is a
  text mentioning the key passes the test and fails one line later with a TypeError.
* **C116** samples of 0.1 degree or less are dropped, not levelled: the slope across a flat stretch or a counter-slope is interpolated
  between the downhill samples on both sides, so a dip or an obstacle of any length in the profile has no effect on the flow at all.
* **C117** with sensible numbers a run can still raise: a step that lands exactly on the packing limit of the kd, mp, mueller, ptp or bll law
  passes the program's own compatibility check (`>` instead of `>=`) and divides by zero in the next step; the rows computed so far are lost
  because the result file is only written at the end. A vent on level ground raises as well (division by the basal stress 0).
* **C118** Switching on viscous heating shortens a modelled flow: the program counts it as a loss (C46), and every extra loss makes the flow
  colder, more crystallised and not longer. The opposite of the physics.
* **C120** `FlowGoLogger` is a singleton and `RunFlowgo()` clears it. Two simulations in threads of one process therefore destroy each other's
  results without an error: constructing a second runner empties the log of the first, which then writes a file that begins somewhere down the
  flow, or no file at all, and returns normally; rows of both runs end up in both files; or both raise ValueError in the CSV writer.
* **C121** the monotone dependence on the effusion rate is proved for steps that are small compared with `velocity * depth`: with the numbers of the
  template and `step_size` 10 the condition reads roughly `velocity * depth >= 0.004` square metres per second at every row. A flow that creeps more slowly
  than that near its front is outside the theorem, and there the explicit step may overshoot.
* **C122** more crust insulates: a flow with a hotter or less extended crust counts as the one in harsher surroundings, because crust is colder than the
  molten core. The comparison holds for the surroundings that the program reads from the file; nothing in the program couples wind or rain to the crust.
* **C123** the run-out of a sweep line is read from the slope file, at the last line not beyond the last position plus the second one (C59): when the flows of two rates stop between the same two
  lines of the slope file they get the same run-out, so "never decreases" is all that can be claimed, even for runs whose lengths differ.
* **C124** a flow that stops because its heat budget is no longer positive (rain off, much viscous heating, say) writes a last row without the rheological columns, and
  `get_run_outs` then fails on a result file that the run itself wrote without a complaint.
* **C125** the bound grows with `exp (K x)`; where the velocity falls towards zero near the front, `K` (which contains `1/velocity`) grows without bound, so that small changes of the input
  may still move the front by a lot. No theorem here says how the run-out depends on a small change; C121 and C122 only say in which direction.
* **C126** the depth search takes the first depth whose discharge reaches the effusion rate, without asking whether the lava moves at that depth. Lava that is stuck in a shallow channel
  (yield strength above the basal stress) gets a positive velocity from the formula, and the stiffer it is the larger: such lava is given the shallowest channel of the grid (1 cm), and doubling gravity makes
  the channel deeper (`C126_stuck_vent`). The stop test only catches such lava after the first step.
* **C127** a flow remembers no more than a row of its table shows, but a restart needs care: melt viscosity `basic` and yield strength `basic` measure cooling from `eruption_temperature`, which is also the
  temperature at which lava leaves the vent, so with these models a flow cannot be configured to go on where another is; with crystallisation `basic` `crystals_grown_during_cooling` has to be scaled by
  (T − solid)/(eruption − solid); crust `hon` and `bimodal` read the time since the eruption; under mass conservation the mass flux is fixed by the density at the vent, so a lava whose vesicularity has
  changed carries another flux after the restart.
* **C128** with the effusion rate left open, fewer crystals or hotter lava at the vent helps all along the flow. With a given effusion rate it need not: the depth search gives thinner lava a shallower
  channel (C126), and a shallower channel cools faster, so C128 claims nothing there.
* **C129** the script and the runner write the same text under different names; nothing but the name tells the two apart.
* **C130** the velocity formula 1 − 3/2 r + 1/2 r³ cancels near r = tho_0/tho_b = 1: it is (1 − r)²(1 + r/2), but the code adds the three terms, so the computed velocity carries an absolute error of about
  12 roundings of the Newtonian velocity and in doubles can be 0 (or negative) although tho_0 < tho_b. The run then ends as if the velocity were zero. Only flows whose yield strength agrees with the basal
  stress to 3e-8 are concerned; the factored form would not have the problem.
* **C131** no defect: in a region where the flow equations are Lipschitz, rounding errors grow no faster than the equations themselves spread; a thousand steps in 53 bits stay within 1e-9 of exact
  arithmetic. The bound needs positions the format represents (dx = 10 m or 0.5 m, not 0.1 m): otherwise the rows of the two tables are not at the same positions (C84).
* **C132** no defect: discretisation error (order dx) and rounding error (order u/dx) only add up; in doubles the second is below 1e-9 for any usable step size.
* **C133** no defect: ptp3 ≤ ptp2 ≤ ptp1, with equality exactly when a phase is missing. ptp2 divides by the sum of both fractions and raises on lava without crystals and bubbles (C29), where the
  other two give 1; with crystals only all three lack the factor 1.51 of Einstein and Roscoe.
* **C134** no defect: in a channel of configured depth a thinner or weaker lava is hotter, faster and goes at least as far. For a configured effusion rate the comparison does not follow: the thinner lava then
  also gets a shallower channel (C133, C119), which cools it more per cubic metre.
* **C135** no defect: steeper ground or stronger gravity makes a lava in a channel of configured depth hotter, faster and longer. Slope samples at the same distances are ordered only as far as they
  reach: beyond the last sample the last line is continued (C50), and there the steeper file can give the smaller slope, even an uphill one.
* **C136** no defect: more density or more latent heat makes a lava in a channel of configured depth hotter, faster and longer. The heat capacity of the lava does not enter the equations at all: the only
  heat a flow can give off is the latent heat of its crystals.
* **C137** no defect: no reader depends on the order of sections or entries, and neither does the exception raised for an incomplete file. Only the order inside an object given as lava_name or
  effusion_rate_init would show, in the name of the result file.
* **C138** no defect: what a sweep writes for a rate is what any other sweep of the same template writes for it. The effusion rate in the template has no influence on a sweep.
