import Verif.Model.SweepText
import Verif.Model.PlotText
import Verif.Model.RunOutsDisk
/-
  pyflowgo/run_flowgo_effusion_rate_array.py:34-81 on the texts of the files.
-/
namespace PyFlowGo
variable {α : Type} [Add α] [Sub α] [Mul α] [Neg α] [OfScientific α] [PyNum α]

/-- The figures of a complete sweep: the slope profile, the labelled curves of the results, and the run-outs. -/
structure SweepFigures (α : Type) where
  slope : List (α × α × α)
  curves : List (List Char × PlotCurves α)
  runOuts : RunOutFigure α

/-- run_flowgo_effusion_rate_array.py:73-81, after the runs: the plots, the template read again for `lava_name`, the run-outs.
    The image files are not represented. -/
def sweepPost (round : Nat → α → α) (F : TextFormat α) (jsonFile folder slopeFile : String) (names : List String)
    (disk : List (String × List Char)) : Except Err (SweepFigures α) × List (String × List Char) :=
  match plotAllText F folder names jsonFile disk with
  | .error e => (.error e, disk)
  | .ok (slope, curves) =>
    match lookup disk (F.canon jsonFile) with
    | none => (.error .fileNotFound, disk)
    | some text =>
      match jsonLoad F.float text with
      | .error e => (.error e, disk)
      | .ok data =>
        match data.get "lava_name" with
        | .error e => (.error e, disk)
        | .ok nm =>
          match getRunOutsText round F folder names slopeFile (nm.show (textEnv F disk)) disk with
          | (.error e, disk') => (.error e, disk')
          | (.ok runOuts, disk') => (.ok { slope, curves, runOuts }, disk')

/-- run_flowgo_effusion_rate_array.py:34-81 `run_flowgo_effusion_rate_array(json_file, path_to_folder, slope_file, effusion_rates)`. -/
def sweepFullText (grid : List α) (fuel : Nat) (round : Nat → α → α) (F : TextFormat α) (sn : α → List Char)
    (jsonFile folder slopeFile : String) (first last step : Int) (disk : List (String × List Char)) :
    Option (Except Err (SweepFigures α) × List (String × List Char)) :=
  match sweepText grid fuel F sn jsonFile folder first last step disk with
  | none => none
  | some (.error e, disk1) => some (.error e, disk1)
  | some (.ok names, disk1) => some (sweepPost round F jsonFile folder slopeFile names disk1)

end PyFlowGo
