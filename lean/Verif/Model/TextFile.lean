import Verif.Model.Terrain
/-
  Text files: Python's text mode, and the four readers of tab-separated profiles.
  A text is a list of characters; `float` is a parameter `pf` (`none` = ValueError).
-/
namespace PyFlowGo
variable {α : Type} [Add α] [Sub α] [Mul α] [Neg α] [OfScientific α] [PyNum α]

/-- Universal newlines; the flag says that the previous character was `\r`. -/
def universalFrom : Bool → List Char → List Char
  | _, [] => []
  | afterCr, c :: r =>
    if c = '\r' then '\n' :: universalFrom true r
    else if c = '\n' ∧ afterCr = true then universalFrom false r
    else c :: universalFrom false r

/-- `open(filename, "r")` without `newline=`: universal newlines, `\r\n` and `\r` are read as `\n`
    (flowgo_terrain_condition.py:83, run_outs.py:30 and 71, plot_flowgo_results.py:32,
    flowgo_crust_temperature_model_field.py:72). -/
def universal (text : List Char) : List Char := universalFrom false text

/-- Iterating over a file object: the lines, each with its terminator. -/
def fileLines : List Char → List (List Char)
  | [] => []
  | c :: r =>
    if c = '\n' then ['\n'] :: fileLines r
    else
      match fileLines r with
      | [] => [[c]]
      | l :: ls => (c :: l) :: ls

/-- `line.strip('\n')`. -/
def stripNewlines (l : List Char) : List Char :=
  ((l.dropWhile (· == '\n')).reverse.dropWhile (· == '\n')).reverse

/-- `line.split('\t')`: at least one field. -/
def splitTabs : List Char → List (List Char)
  | [] => [[]]
  | c :: r =>
    if c = '\t' then [] :: splitTabs r
    else
      match splitTabs r with
      | [] => [[c]]
      | f :: fs => (c :: f) :: fs

omit [Add α] [Sub α] [Mul α] [Neg α] [OfScientific α] [PyNum α] in
/-- `float(split_line[i])`. -/
def floatField (pf : List Char → Option α) (fs : List (List Char)) (i : Nat) : Except Err α :=
  match fs[i]? with
  | none => .error .indexError
  | some f => match pf f with
    | none => .error .valueError
    | some x => .ok x

/-- The data lines: `f.readline()` drops the first line, then the loop splits every other. -/
def dataLines (text : List Char) : List (List (List Char)) :=
  (fileLines (universal text)).tail.map fun l => splitTabs (stripNewlines l)

omit [Add α] [Sub α] [Mul α] [Neg α] in
/-- The loop of flowgo_terrain_condition.py:102-111: a line whose fifth field is at most 0.1 is skipped without looking at
    its other fields. (`math.radians` is applied in the same loop; here it is applied afterwards.) -/
def slopeRows (pf : List Char → Option α) : List (List (List Char)) → Except Err (List (SlopeLine α))
  | [] => .ok []
  | fs :: rest => do
    let s ← floatField pf fs 4
    if leB s 0.1 then slopeRows pf rest
    else do
      let d ← floatField pf fs 3
      let e ← floatField pf fs 2
      let a ← floatField pf fs 0
      let o ← floatField pf fs 1
      let rows ← slopeRows pf rest
      return { lat := a, lon := o, elev := e, dist := d, slopeDeg := s } :: rows

/-- flowgo_terrain_condition.py:73-121 `read_slope_from_file`, from the text of the file. -/
def Terrain.readSlopeText (pf : List Char → Option α) (t : Terrain α) (text : List Char) : Except Err (Terrain α) := do
  let kept ← slopeRows pf (dataLines text)
  let slopes ← kept.mapM (fun r => radians r.slopeDeg)
  let slopes ← if t.smoothing then runningMean slopes t.smoothingPoints else .ok slopes
  let sp ← Spline.make (kept.map (·.dist)) slopes
  return { t with spline := some sp }

omit [Sub α] [Mul α] [Neg α] [OfScientific α] [Add α] in
/-- The loop of run_outs.py:73-81: the lines (latitude, longitude, altitude, distance) up to a distance. -/
def runOutRows (pf : List Char → Option α) (limit : α) : List (List (List Char)) → Except Err (List (α × α × α × α))
  | [] => .ok []
  | fs :: rest => do
    let d ← floatField pf fs 3
    if leB d limit then do
      let a ← floatField pf fs 0
      let o ← floatField pf fs 1
      let e ← floatField pf fs 2
      let rows ← runOutRows pf limit rest
      return (a, o, e, d) :: rows
    else runOutRows pf limit rest

omit [Sub α] [Mul α] [Neg α] [OfScientific α] [Add α] [PyNum α] in
/-- The loop of plot_flowgo_results.py:45-49: distance, slope, altitude of every line. -/
def plotRows (pf : List Char → Option α) : List (List (List Char)) → Except Err (List (α × α × α))
  | [] => .ok []
  | fs :: rest => do
    let d ← floatField pf fs 3
    let s ← floatField pf fs 4
    let e ← floatField pf fs 2
    let rows ← plotRows pf rest
    return (d, s, e) :: rows

omit [Sub α] [Mul α] [Neg α] [OfScientific α] [Add α] [PyNum α] in
/-- The loop of flowgo_crust_temperature_model_field.py:74-77: distance and temperature in degrees Celsius. (The
    conversion to kelvin of line 77 is in `readCrustField`.) -/
def crustRows (pf : List Char → Option α) : List (List (List Char)) → Except Err (List (α × α))
  | [] => .ok []
  | fs :: rest => do
    let d ← floatField pf fs 0
    let t ← floatField pf fs 1
    let rows ← crustRows pf rest
    return (d, t) :: rows

end PyFlowGo
