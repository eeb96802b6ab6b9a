import Verif.Model.RunText
import Verif.Model.EffArray
/-
  pyflowgo/run_flowgo_effusion_rate_array.py:34-71 on the texts of the files.
-/
namespace PyFlowGo
variable {α : Type} [Add α] [Sub α] [Mul α] [Neg α] [OfScientific α] [PyNum α]

/-- run_flowgo_effusion_rate_array.py:52-71: per rate the working copy is written (`json.dump(…, indent=4)`, numbers written by
    `sn`), run, and the name of the result file collected. `none`: some run did not end within `fuel` iterations. -/
def sweepTextLoop (grid : List α) (fuel : Nat) (F : TextFormat α) (sn : α → List Char) (base : Json α) (working folder : String) :
    List Int → List String → List (String × List Char) → Option (Except Err (List String) × List (String × List Char))
  | [], names, disk => some (.ok names, disk)
  | r :: rest, names, disk =>
    match base.set "effusion_rate_init" (.int r) with
    | .error e => some (.error e, disk)
    | .ok data =>
      match runTextOn grid fuel F working folder
          (writeFile disk (F.canon working) (stored F.windows (jsonDump sn data))) with
      | none => none
      | some (.error e, disk2) => some (.error e, disk2)
      | some (.ok _, disk2) =>
        match data.get "lava_name" with
        | .error e => some (.error e, disk2)
        | .ok nm =>
          sweepTextLoop grid fuel F sn base working folder rest
            (names ++ [resultFileName folder (nm.show (textEnv F disk2)) (toString r)]) disk2

/-- run_flowgo_effusion_rate_array.py:34-71. (`copy()` of line 56 raises AttributeError on a template that is not an object or a
    list; `set` raises TypeError in that case.) -/
def sweepText (grid : List α) (fuel : Nat) (F : TextFormat α) (sn : α → List Char) (jsonFile folder : String)
    (first last step : Int) (disk : List (String × List Char)) :
    Option (Except Err (List String) × List (String × List Char)) :=
  match lookup disk (F.canon jsonFile) with
  | none => some (.error .fileNotFound, disk)
  | some text =>
    match jsonLoad F.float text with
    | .error e => some (.error e, disk)
    | .ok base =>
      match sweepRates first last step with
      | .error e => some (.error e, disk)
      | .ok rates => sweepTextLoop grid fuel F sn base (workingFile jsonFile folder) folder rates [] disk

end PyFlowGo
