import Verif.Model.Csv
import Verif.Model.World
/-
  pyflowgo/run_outs.py:7-90 (the plot at lines 92-113 is not modelled).
-/
namespace PyFlowGo
variable {α : Type} [Add α] [PyNum α]

/-- `float(row[name])` for every row: a missing column is a KeyError, an empty cell a ValueError
    (`float('')`). A number written by `csv` and parsed back is the same number. -/
def floatColumn (t : CsvTable (Cell α)) (name : String) : Except Err (List α) := do
  let col ← t.column name
  col.mapM fun c => match c with
    | some (.num x) => .ok x
    | some (.text x) => .ok x
    | none => .error .valueError

/-- Python `max(list)`. -/
def maxList : List α → Except Err α
  | [] => .error .valueError
  | x :: rest => .ok (rest.foldl pyMax x)

omit [Add α] [PyNum α] in
/-- `l[i]`. -/
def listGet (l : List α) (i : Nat) : Except Err α :=
  match l[i]? with
  | some x => .ok x
  | none => .error .indexError

/-- One line of the run-out table (run_outs.py:88). -/
structure RunOut (α : Type) where
  effusionRate : α
  depth : α
  widthInit : α
  xInit : α
  yInit : α
  altInit : α
  x : α
  y : α
  alt : α
  runOut : α

omit [Add α] [PyNum α] in
/-- `l[-1]`. -/
def lastOf (l : List α) : Except Err α :=
  match l.getLast? with
  | some x => .ok x
  | none => .error .indexError

/-- run_outs.py:18-88 for one result file.  The reader appends the ten columns row by row, hence the
    first missing column or empty cell raises; here column by column, which differs only in which of
    several errors comes first.  `round k x` is Python's `round(x, k)`. -/
def getRunOut (round : Nat → α → α) (t : CsvTable (Cell α)) (lines : List (SlopeLine α)) :
    Except Err (RunOut α) := do
  let distance ← floatColumn t "position"
  let _slope ← floatColumn t "slope"
  let _temp ← floatColumn t "core_temperature"
  let _v ← floatColumn t "mean_velocity"
  let _visc ← floatColumn t "viscosity"
  let _phi ← floatColumn t "crystal_fraction"
  let width ← floatColumn t "channel_width"
  let depth ← floatColumn t "channel_depth"
  let rate ← floatColumn t "effusion_rate"
  let _tho ← floatColumn t "tho_0"
  let r0 ← listGet rate 0
  let runOutDistance ← maxList distance
  let d1 ← listGet depth 1
  let w1 ← listGet width 1
  let x1 ← listGet distance 1
  let kept := lines.filter (fun l => leB l.dist (runOutDistance + x1))
  let lat0 ← listGet (kept.map (·.lat)) 0
  let lon0 ← listGet (kept.map (·.lon)) 0
  let alt0 ← listGet (kept.map (·.elev)) 0
  let lat ← lastOf (kept.map (·.lat))
  let lon ← lastOf (kept.map (·.lon))
  let alt ← lastOf (kept.map (·.elev))
  let dist ← lastOf (kept.map (·.dist))
  return { effusionRate := round 0 r0, depth := d1, widthInit := w1, xInit := round 2 lat0,
           yInit := round 2 lon0, altInit := round 1 alt0, x := round 2 lat, y := round 2 lon,
           alt := round 1 alt, runOut := round 0 dist }

end PyFlowGo
