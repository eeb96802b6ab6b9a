import Verif.Model.SweepFull
/-
  main_run_and_plot_flowgo_GUI.py:21-82: the two buttons. The contents of the text fields are parameters; dialogs, the
  window and `os.makedirs` of the results folder are not modelled (a result file can be written into any folder).
-/
namespace PyFlowGo
variable {α : Type} [Add α] [Sub α] [Mul α] [Neg α] [OfScientific α] [PyNum α]

/-- What the user sees after pressing a button. -/
inductive GuiShown (α : Type) where
  /-- "Please select a JSON file and results folder" -/
  | selectFiles
  /-- "Effusion rates must be numeric values." -/
  | notNumeric
  /-- the figures of a single run: the slope profile and the curves; then "completed successfully" -/
  | single (profile : List (SlopeLine α)) (curves : List (PlotCurves α))
  /-- the figures and the run-out file of a sweep; then "completed successfully" -/
  | sweep (output : SweepOutput α)

/-- main_run_and_plot_flowgo_GUI.py:21-41 `run_flowgo_single`. -/
def guiSingle (grid : List α) (fuel : Nat) (env : Env α) (jsonFile folder : String) (p : Proc α) :
    Option (Except Err (GuiShown α) × Proc α) :=
  if jsonFile.isEmpty || folder.isEmpty then some (.ok .selectFiles, p)
  else
    match runOn grid fuel env jsonFile folder (newRunner p) with
    | none => none
    | some (.error e, p1) => some (.error e, p1)
    | some (.ok _, p1) =>
      match getFileNameResults env folder jsonFile p1 with
      | .error e => some (.error e, p1)
      | .ok name =>
        match plotAll env p1 [name] jsonFile with
        | .error e => some (.error e, p1)
        | .ok (profile, curves) => some (.ok (.single profile curves), p1)

omit [Add α] [Sub α] [Mul α] [Neg α] [OfScientific α] in
/-- main_run_and_plot_flowgo_GUI.py:54-56 `int(float(text))`: ValueError on a text that is no number, truncation towards
    zero otherwise. (Infinities, on which `int` raises OverflowError, are not modelled.) -/
def intOfText (env : Env α) (text : String) : Except Err Int :=
  match env.parseFloat text with
  | none => .error .valueError
  | some x => .ok (PyNum.truncInt x)

/-- main_run_and_plot_flowgo_GUI.py:44-82 `run_flowgo_effusion`. A `slope_file` entry that is not a text is passed on by
    the code; it makes every run or the plots fail (`plotAll`) before it is used, so the empty text stands for it. -/
def guiSweep (grid : List α) (fuel : Nat) (round : Nat → α → α) (env : Env α) (jsonFile folder : String)
    (first last step : String) (p : Proc α) : Option (Except Err (GuiShown α) × Proc α) :=
  if jsonFile.isEmpty || folder.isEmpty then some (.ok .selectFiles, p)
  else
    match (do let a ← intOfText env first
              let b ← intOfText env last
              let c ← intOfText env step
              return (a, b, c) : Except Err (Int × Int × Int)) with
    | .error _ => some (.ok .notNumeric, p)
    | .ok (a, b, c) =>
      match lookup p.json (env.canon jsonFile) with
      | none => some (.error .fileNotFound, p)
      | some (.obj l) =>
        let slopeFile := match lookup l "slope_file" with
          | some (.str s) => s
          | _ => ""
        match sweepFull grid fuel round env jsonFile folder slopeFile a b c p with
        | none => none
        | some (.error e, p1, _) => some (.error e, p1)
        | some (.ok _, p1, out) => some (.ok (.sweep out), p1)
      | some _ => some (.error .attributeError, p)

end PyFlowGo
