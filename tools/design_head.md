# DESIGN — a Lean 4 model of PyFLOWGO and what is proved about it

Subject: `/repo` (pyflowgo/pyflowgo, pinned). Nothing in `/repo` is run; every definition in
`lean/Verif/Model/*.lean` cites the file and lines it models.

## 1. Shape of the model

* **Numbers.** All model functions are polymorphic in a number type `α` with the standard classes
  `Add/Sub/Mul/Neg/OfScientific` plus `PyNum α` (`Model/Num.lean`): comparisons as `Bool`, and the
  *partial* Python operations (`/`, `**`, `math.pow`, `math.log10`) as `Except Err α`, so that every
  fault of the code (ZeroDivisionError, math domain error, complex result) is an explicit branch.
  Three instances: `ℝ` (noncomputable, used by most proofs), `Rounded rd` (real numbers whose every operation, literal and
  math function is rounded by an arbitrary `rd`, `Model/RoundNum.lean`, used by C83-C86) and `Float` (computable, used only
  to run the model against numbers printed in the repository: a test, not a proof).
* **Exceptions are values.** Pure sub-models are `FlowState α → Except Err α`; code that mutates is in
  `PyM σ β := σ → Except Err β × σ`, so mutations made before an exception survive it, as in Python.
* **State.** `World α` = lava state (crystal fraction, temperature, position, time, strain rate),
  terrain (with its mutable depth), the process-wide log, and the integrator fields (effusion rate,
  flux rate *if assigned*, iteration, finished flag).
* **Models** are inductive types, one constructor per class of `/repo/pyflowgo`, carrying its parameters.
* **Log**: an ordered list of rows, each an insertion-ordered dictionary with the `'position'` key, for
  any value type with `==`.
* **Configuration**: a JSON tree (`Model/Json.lean`); `Model/Factory.lean` is the factory as a function
  `Json → Except Err …`.

Specifications used in theorem statements are in `Verif/Spec/*.lean`; they are short and do not use the
model's helpers. Helper lemmas are in `Verif/Proofs`, property theorems (names `Cnn_…`) in `Verif/Props`,
each followed by an `example` showing that a concrete non-trivial case satisfies its hypotheses.

## 2. Trusted base

* Lean 4.33.0's kernel; axioms used are at most `propext`, `Classical.choice`, `Quot.sound`
  (checked with `#print axioms`, see §5). No axiom is added, no compiled-code proof method is used.
* Mathlib for the reals and real analysis (checked by the same kernel).
* The reading of `/repo` by which the model was written (citations in every definition).
* **Real arithmetic instead of IEEE double.** Theorems instantiated at `ℝ` say nothing about rounding,
  overflow, NaN or infinities. C83-C86 are about rounded arithmetic: their assumptions on the rounding (`Spec/RoundSpec.lean`) are
  proved of the binary formats (53 bits, gradual underflow) in `Proofs/RoundFormat.lean`; overflow to inf, NaN and signed zeros are
  not modelled there, and `math.exp`, `math.sin`, ... are taken to be rounded by the same function. Theorems stated for every `α` (log, loop bookkeeping, factory, frame
  properties) hold for any arithmetic, hence also for doubles, unless they assume a law explicitly.
* Division by zero is modelled as the exception Python floats raise, except in C112-C113. After `init_effusion_rate` with a non-zero
  rate the depth is a `numpy.float64`, for which numpy warns and yields inf/nan instead. C112 proves that this makes no difference to
  runs without exceptions, and C113 what happens otherwise, on numbers that carry their kind, signed zeros, infinities and nan
  (`Model/NumpyNum.lean`); there, finite operands never overflow, and what scipy's spline returns has the kind of its knots.
* A negative number raised to a non-integer power is a complex number in Python 3; the model treats it as
  the fault `complexResult` at once (the code raises TypeError at the next comparison / math call).
* `scipy.interpolate.InterpolatedUnivariateSpline(x, y, k=1)` is modelled as exact piecewise-linear
  interpolation with linear extrapolation from the end segments, ValueError unless x is strictly
  increasing with at least two points.
* `float("inf")` (BLL model with vesicle fraction ≥ 1) is modelled as the fault `Err.infinite`.
* `numpy.arange(0.01, 50.0, 0.001)` is modelled as `0.01 + i*0.001` for `i < 49990`.
* `print`, matplotlib output, file permissions, encodings and the tkinter windows are not modelled.
* `json.load`/`json.dump` are modelled on texts in C79-C82 and at the level of JSON trees elsewhere; in the editor (C61, C65) `str` of a
  leaf and `json.loads` are an arbitrary codec whose laws are hypotheses (`Spec.PythonText`), with a concrete instance.

## 3. Modelled and not modelled

Modelled: every file `pyflowgo/flowgo_*.py` (logger, state, integrator, terrain, lava, air, heat budget,
factory, all vesicle / crystallisation / crust / cover / melt / relative-viscosity / bubble / yield /
flux models), `run_flowgo.py`, `run_flowgo_effusion_rate_array.py`, `main_flowgo.py`, the data part of `run_outs.py` and of
`plot_flowgo_results.py`, the load/save logic of `edit_json.py`, the button handlers of
`main_run_and_plot_flowgo_GUI.py`, the vent helpers of `StartFlowgo`; Python's universal newlines, line iteration, `strip`/`split`,
and CPython's `csv` writer, reader, `DictReader`/`DictWriter` on texts (C73-C75), with `float`/`str` of numbers as an arbitrary codec;
CPython's `json.load` and `json.dump(indent=4)` on texts (C79), which justifies a file store of JSON values elsewhere; the labels of the
curves (C91, C93) and what `main_plot_results_field_data.py` draws; the scripts `main_run_flowgo.py`, `main_plot_flowgo_results.py`,
`main_run_and_plot_flowgo.py` (C103), `Venus/main_flowgo_Venus_Tolba.py` and `MaunaUlu74/main_flowgo_MU74_paper.py` (C104), with the paths
written into them as parameters. Runs and sweeps are also modelled as processes (C107-C111, C114): every opening of a file for reading is one
atomic step that yields the whole text, writing is a truncation followed by any prefixes the buffering chooses and then the whole text,
and each process has a logger of its own.
Not modelled: thread switches inside a constructor, a preparation, a `single_step` or the writing of a file (switches between them are: C120), file systems that reorder writes, drawing itself (axes, limits, titles, image files), the tkinter windows,
`flowgo_crust_temperature_model_hr2001.py` beyond its formula (the factory does not use it), abstract
base classes.

