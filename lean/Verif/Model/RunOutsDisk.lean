import Verif.Model.RunOutText
import Verif.Model.RunText
/-
  pyflowgo/run_outs.py:7-113 on the texts of the files.
-/
namespace PyFlowGo
variable {α : Type} [Add α] [PyNum α]

/-- What is kept of a line of a result file, run_outs.py:34-43 (six of the ten columns are read but not used further). -/
structure RunOutRow (α : Type) where
  position : α
  width : α
  depth : α
  rate : α

omit [Add α] [PyNum α] in
/-- run_outs.py:34-43: the ten columns in the order they are read. -/
def readRunOutRow (pf : List Char → Option α) (row : List (List Char × Option (List Char))) : Except Err (RunOutRow α) := do
  let position ← dictFloat pf row "position"
  let _slope ← dictFloat pf row "slope"
  let _temp ← dictFloat pf row "core_temperature"
  let _v ← dictFloat pf row "mean_velocity"
  let _visc ← dictFloat pf row "viscosity"
  let _phi ← dictFloat pf row "crystal_fraction"
  let width ← dictFloat pf row "channel_width"
  let depth ← dictFloat pf row "channel_depth"
  let rate ← dictFloat pf row "effusion_rate"
  let _tho ← dictFloat pf row "tho_0"
  return { position, width, depth, rate }

/-- run_outs.py:30-89 for one result file, from its text and that of the slope profile (`none`: cannot be opened). -/
def runOutOfText (round : Nat → α → α) (pf : List Char → Option α) (text : List Char) (slope : Option (List Char)) :
    Except Err (RunOut α) := do
  let dicts ← dictRead ',' text
  let rows ← dicts.mapM (readRunOutRow pf)
  let r0 ← listGet (rows.map (·.rate)) 0
  let far ← maxList (rows.map (·.position))
  let d1 ← listGet (rows.map (·.depth)) 1
  let w1 ← listGet (rows.map (·.width)) 1
  match slope with
  | none => .error .fileNotFound
  | some profile => do
    let x1 ← listGet (rows.map (·.position)) 1
    let kept ← runOutRows pf (far + x1) (dataLines profile)
    let lat0 ← listGet (kept.map (·.1)) 0
    let lon0 ← listGet (kept.map (·.2.1)) 0
    let alt0 ← listGet (kept.map (·.2.2.1)) 0
    let lat ← lastOf (kept.map (·.1))
    let lon ← lastOf (kept.map (·.2.1))
    let alt ← lastOf (kept.map (·.2.2.1))
    let dist ← lastOf (kept.map (·.2.2.2))
    return { effusionRate := round 0 r0, depth := d1, widthInit := w1, xInit := round 2 lat0,
             yInit := round 2 lon0, altInit := round 1 alt0, x := round 2 lat, y := round 2 lon,
             alt := round 1 alt, runOut := round 0 dist }

/-- run_outs.py:17-90, the loop over the result files: the lines written when it ends or raises. -/
def runOutTexts (round : Nat → α → α) (F : TextFormat α) (disk : List (String × List Char)) (slopeFile : String) :
    List String → Except Err Unit × List (RunOut α)
  | [] => (.ok (), [])
  | name :: rest =>
    match lookup disk (F.canon name) with
    | none => (.error .fileNotFound, [])
    | some text =>
      match runOutOfText round F.float text (lookup disk (F.canon slopeFile)) with
      | .error e => (.error e, [])
      | .ok line => let (e, ls) := runOutTexts round F disk slopeFile rest
                    (e, line :: ls)

/-- run_outs.py:7-113 `get_run_outs(path_to_folder, flowgo_results, slope_file, lava_name)` on a disk of texts: the figure it
    saves and the disk afterwards. The run-out file is opened for writing, hence emptied, first; what is written to it is on
    the disk when it is closed (line 91), also after an exception. -/
def getRunOutsText (round : Nat → α → α) (F : TextFormat α) (folder : String) (names : List String) (slopeFile lavaName : String)
    (disk : List (String × List Char)) : Except Err (RunOutFigure α) × List (String × List Char) :=
  let path := F.canon (pathJoin folder ("run_outs_" ++ lavaName ++ ".csv"))
  let (e, ls) := runOutTexts round F (writeFile disk path []) slopeFile names
  let text := stored F.windows
    (({ path := pathJoin folder ("run_outs_" ++ lavaName ++ ".csv"), flowId := lavaName, lines := ls } : RunOutFile α).text
      fun x => F.str (.num x))
  match e with
  | .error e => (.error e, writeFile disk path text)
  | .ok _ => (runOutFigure F.float text, writeFile disk path text)

end PyFlowGo
