import Verif.Model.CsvText
import Verif.Model.EffArray
/-
  pyflowgo/run_flowgo_effusion_rate_array.py:12-32: the helpers of `StartFlowgo`.
-/
namespace PyFlowGo
variable {α : Type}

/-- run_flowgo_effusion_rate_array.py:20 `'_' + str(row['flow_id'])`. -/
def ventName (row : List (List Char × Option (List Char))) : Except Err (List Char) := do
  match ← dictField row "flow_id" with
  | none => return '_' :: "None".toList
  | some f => return '_' :: f

/-- run_flowgo_effusion_rate_array.py:12-23 `make_vent_list`, from the text of the file. -/
def makeVentList (text : List Char) : Except Err (List (List Char)) := do
  let rows ← dictRead ';' text
  rows.mapM ventName

/-- run_flowgo_effusion_rate_array.py:25-32 `make_new_json`. -/
def makeNewJson (env : Env α) (template eruptionName slopeFile output : String) (p : Proc α) : Except Err Unit × Proc α :=
  match lookup p.json (env.canon template) with
  | none => (.error .fileNotFound, p)
  | some data =>
    match (do let d ← data.set "lava_name" (.str eruptionName)
              d.set "slope_file" (.str slopeFile) : Except Err (Json α)) with
    | .error e => (.error e, p)
    | .ok d => (.ok (), { p with json := writeFile p.json (env.canon output) d })

end PyFlowGo
