import Verif.Model.CsvText
import Verif.Model.SweepFull
/-
  The run-out file as text and the figure drawn from it: run_outs.py:10-16, 86-113.
-/
namespace PyFlowGo
variable {α : Type}

/-- run_outs.py:13-14 `heads`. -/
def runOutHeads : List String :=
  ["flow_id", "Effusion_rate", "Depth", "Width_init", "X_init", "Y_init", "Elevation_init",
   "X_run_out", "Y_run_out", "Elevation_run_out", "Distance_run_out"]

/-- run_outs.py:87-88: one line, `str` of the numbers being `render`. -/
def runOutFields (render : α → List Char) (flowId : String) (l : RunOut α) : List (List Char) :=
  [flowId.toList, render l.effusionRate, render l.depth, render l.widthInit, render l.xInit, render l.yInit,
   render l.altInit, render l.x, render l.y, render l.alt, render l.runOut]

/-- run_outs.py:12-16 and 88: the characters handed to the run-out file. -/
def RunOutFile.text (render : α → List Char) (f : RunOutFile α) : List Char :=
  csvWrite ',' (runOutHeads.map String.toList :: f.lines.map (runOutFields render f.flowId))

/-- What the figure `effusion_rate_vs_distance.png` shows. -/
structure RunOutFigure (α : Type) where
  title : List Char
  distance : List α
  effusionRate : List α

/-- run_outs.py:97-103, the loop: the flow id of the last line, the distances and the rates. (`str(None)` for a missing
    field is not represented: the file has just been written with eleven fields per line.) -/
def runOutFigureLoop (pf : List Char → Option α) :
    List (List (List Char × Option (List Char))) → Option (List Char) → Except Err (Option (List Char) × List (α × α))
  | [], id => .ok (id, [])
  | row :: rest, _ => do
    let id ← dictField row "flow_id"
    let e ← dictFloat pf row "Effusion_rate"
    let d ← dictFloat pf row "Distance_run_out"
    let (last, ps) ← runOutFigureLoop pf rest id
    return (last, (d, e) :: ps)

/-- run_outs.py:92-113: the figure; without a line `flow_id` is unbound. -/
def runOutFigure (pf : List Char → Option α) (text : List Char) : Except Err (RunOutFigure α) := do
  let rows ← dictRead ',' text
  let (last, ps) ← runOutFigureLoop pf rows none
  match last with
  | none => .error .nameError
  | some title => return { title, distance := ps.map (·.1), effusionRate := ps.map (·.2) }

end PyFlowGo
