import Verif.Model.EffArray
import Verif.Model.Plot
/-
  The post-processing of a sweep: run_flowgo_effusion_rate_array.py:73-81 and run_outs.py:7-113.
-/
namespace PyFlowGo
variable {α : Type} [Add α] [Sub α] [Mul α] [Neg α] [OfScientific α] [PyNum α]

omit [Sub α] [Mul α] [Neg α] [OfScientific α] in
/-- run_outs.py:17-89: the loop over the result files. The second component is what has been written to the run-out file
    when the loop ends or raises (the header is not represented). A missing slope file is reported before, in the code
    after, the faults of `getRunOut`. -/
def runOutsLoop (round : Nat → α → α) (slope : Option (List (SlopeLine α)))
    (results : String → Option (CsvTable (Cell α))) : List String → Except Err Unit × List (RunOut α)
  | [] => (.ok (), [])
  | name :: rest =>
    match results name with
    | none => (.error .fileNotFound, [])
    | some t =>
      match slope with
      | none => (.error .fileNotFound, [])
      | some lines =>
        match getRunOut round t lines with
        | .error e => (.error e, [])
        | .ok line => let (e, ls) := runOutsLoop round slope results rest
                      (e, line :: ls)

/-- The run-out file: its path, the name in the column `flow_id` of every line, and the other columns. -/
structure RunOutFile (α : Type) where
  path : String
  flowId : String
  lines : List (RunOut α)

omit [Sub α] [Mul α] [Neg α] [OfScientific α] in
/-- run_outs.py:7-113 `get_run_outs`. Without a line the variable `flow_id` of line 105 is unbound (UnboundLocalError, a
    NameError). -/
def getRunOuts (round : Nat → α → α) (env : Env α) (p : Proc α) (folder : String) (names : List String)
    (slopeFile lavaName : String) : Except Err Unit × RunOutFile α :=
  let (e, ls) := runOutsLoop round (env.slopeFile slopeFile) (fun name => lookup p.results (env.canon name)) names
  let file := { path := pathJoin folder ("run_outs_" ++ lavaName ++ ".csv"), flowId := lavaName, lines := ls }
  match e with
  | .error e => (.error e, file)
  | .ok _ => if names.isEmpty then (.error .nameError, file) else (.ok (), file)

/-- What a call of `run_flowgo_effusion_rate_array` leaves behind besides the result files: the drawn curves and the
    run-out file, as far as they were written. -/
structure SweepOutput (α : Type) where
  curves : Option (List (PlotCurves α))
  runOuts : Option (RunOutFile α)

/-- run_flowgo_effusion_rate_array.py:34-81: the runs, the plots, the template read again for `lava_name`, the run-outs. -/
def sweepFull (grid : List α) (fuel : Nat) (round : Nat → α → α) (env : Env α) (jsonFile folder slopeFile : String)
    (first last step : Int) (p : Proc α) : Option (Except Err Unit × Proc α × SweepOutput α) :=
  match sweep grid fuel env jsonFile folder first last step p with
  | none => none
  | some (.error e, p1) => some (.error e, p1, { curves := none, runOuts := none })
  | some (.ok names, p1) =>
    match plotAll env p1 names jsonFile with
    | .error e => some (.error e, p1, { curves := none, runOuts := none })
    | .ok (_, cs) =>
      match lookup p1.json (env.canon jsonFile) with
      | none => some (.error .fileNotFound, p1, { curves := some cs, runOuts := none })
      | some data =>
        match data.get "lava_name" with
        | .error e => some (.error e, p1, { curves := some cs, runOuts := none })
        | .ok nm =>
          let (e, file) := getRunOuts round env p1 folder names slopeFile (nm.show env)
          some (e, p1, { curves := some cs, runOuts := some file })

end PyFlowGo
