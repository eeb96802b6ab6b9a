import Verif.Model.Run
/-
  pyflowgo/run_flowgo_effusion_rate_array.py:34-79. Plotting (line 73) is not modelled.
-/
namespace PyFlowGo
variable {α : Type}

/-- Python `range(start, stop, step)`; ValueError when step = 0. -/
def pyRange (start stop step : Int) : Except Err (List Int) :=
  if step = 0 then .error .valueError
  else if 0 < step then
    .ok ((List.range ((stop - start + step - 1) / step).toNat).map fun (i : Nat) => start + step * (i : Int))
  else
    .ok ((List.range ((start - stop + (-step) - 1) / (-step)).toNat).map fun (i : Nat) => start + step * (i : Int))

/-- run_flowgo_effusion_rate_array.py:52-54: the effusion rates of the sweep. -/
def sweepRates (first last step : Int) : Except Err (List Int) := pyRange first (last + step) step

/-- `os.path.basename(p)` (POSIX): what follows the last slash. -/
def baseName (p : String) : String :=
  String.ofList ((p.toList.reverse.takeWhile (· != '/')).reverse)

/-- run_flowgo_effusion_rate_array.py:47-50: `splitext` followed by joining root and extension is the
    base name again. -/
def workingFile (jsonFile folder : String) : String := pathJoin folder (baseName jsonFile)

/-- `data[k] = v` on a JSON object (keeps the position of an existing key). -/
def Json.set (j : Json α) (k : String) (v : Json α) : Except Err (Json α) :=
  match j with
  | .obj l =>
    if (lookup l k).isSome then
      .ok (.obj (l.map fun kv => if kv.1 == k then (kv.1, v) else kv))
    else .ok (.obj (l ++ [(k, v)]))
  | _ => .error .typeError

variable [Add α] [Sub α] [Mul α] [Neg α] [OfScientific α] [PyNum α]

/-- run_flowgo_effusion_rate_array.py:52-71, the loop over the remaining rates; collects the result
    file names.  `none`: some run did not end within `fuel` iterations. -/
def sweepLoop (grid : List α) (fuel : Nat) (env : Env α) (base : Json α) (working folder : String) :
    List Int → List String → Proc α → Option (Except Err (List String) × Proc α)
  | [], names, p => some (.ok names, p)
  | r :: rest, names, p =>
    match base.set "effusion_rate_init" (.int r) with
    | .error e => some (.error e, p)
    | .ok data =>
      let p1 := { p with json := writeFile p.json (env.canon working) data }
      match runOn grid fuel env working folder (newRunner p1) with
      | none => none
      | some (.error e, p2) => some (.error e, p2)
      | some (.ok _, p2) =>
        match data.get "lava_name" with
        | .error e => some (.error e, p2)
        | .ok nm =>
          let name := resultFileName folder (nm.show env) (toString r)
          sweepLoop grid fuel env base working folder rest (names ++ [name]) p2

/-- run_flowgo_effusion_rate_array.py:34-71 `run_flowgo_effusion_rate_array` up to the post-processing
    (plots and `run_outs.get_run_outs`, which are in Model/SweepFull). The sweep bounds are integers
    (`range` rejects anything else). -/
def sweep (grid : List α) (fuel : Nat) (env : Env α) (jsonFile folder : String)
    (first last step : Int) (p : Proc α) : Option (Except Err (List String) × Proc α) :=
  match lookup p.json (env.canon jsonFile) with
  | none => some (.error .fileNotFound, p)
  | some base =>
    match sweepRates first last step with
    | .error e => some (.error e, p)
    | .ok rates => sweepLoop grid fuel env base (workingFile jsonFile folder) folder rates [] p

end PyFlowGo
