import Verif.Model.Interp
/-
  pyflowgo/flowgo_terrain_condition.py
-/
namespace PyFlowGo
variable {α : Type} [Add α] [Sub α] [Mul α] [OfScientific α] [PyNum α]

/-- flowgo_terrain_condition.py:44-56, the fields of `FlowGoTerrainCondition`. -/
structure Terrain (α : Type) where
  /-- `_effusion_rate_init` -/
  effusionRateInit : α
  /-- `_channel_depth` (mutable: `set_channel_depth`) -/
  depth : α
  /-- `_channel_width` -/
  width : α
  /-- `_gravity` -/
  gravity : α
  /-- `_default_slope` [rad] -/
  defaultSlope : α
  /-- `_slope_spline` (`None` until a slope file is read) -/
  spline : Option (Spline α)
  /-- `_max_channel_length` -/
  maxLength : α
  /-- `_slope_smoothing_active` -/
  smoothing : Bool
  /-- `_slope_smoothing_number_of_points` -/
  smoothingPoints : α
  deriving Repr

/-- `math.radians(d)` = d * pi / 180. -/
def radians (d : α) : Except Err α := PyNum.div (d * PyNum.pi) 180.0

/-- flowgo_terrain_condition.py:123-127 `get_channel_slope`. -/
def Terrain.slope (t : Terrain α) (x : α) : Except Err α :=
  match t.spline with
  | some s => s.eval x
  | none => .ok t.defaultSlope

/-- Python's `l[start:stop]` for `0 <= start`: a negative `stop` counts from the end of the list. -/
def pySlice {β : Type} (l : List β) (start : Nat) (stop : Int) : List β :=
  let stop' : Int := if stop < 0 then max 0 (stop + (l.length : Int)) else stop
  (l.take stop'.toNat).drop start

/-- flowgo_terrain_condition.py:147-159 `running_mean(l, n)`, one element; `n` is a float.
    `start = max(0, i - int(n/2))`, `last = min(len-1, int(i + n/2))`, then the sum of
    `l[start:last+1]` divided by its length. -/
def runningMeanAt (l : List α) (n : α) (i : Nat) : Except Err α := do
  let half ← PyNum.div n 2.0
  let start : Int := max 0 ((i : Int) - PyNum.truncInt half)
  let last : Int := min ((l.length : Int) - 1) (PyNum.truncInt (PyNum.ofInt (i : Int) + half))
  let cur := pySlice l start.toNat (last + 1)
  let total := cur.foldl (· + ·) 0.0
  PyNum.div total (PyNum.ofInt (cur.length : Int))

/-- flowgo_terrain_condition.py:147-159. -/
def runningMean (l : List α) (n : α) : Except Err (List α) :=
  (List.range l.length).mapM (runningMeanAt l n)

/-- One data line of a slope file after `strip`/`split('\t')`/`float`:
    latitude, longitude, elevation, distance, slope in degrees
    (flowgo_terrain_condition.py:96-100). -/
structure SlopeLine (α : Type) where
  lat : α
  lon : α
  elev : α
  dist : α
  slopeDeg : α
  deriving Repr

/-- flowgo_terrain_condition.py:102-111: rows with slope <= 0.1 are skipped. -/
def keepSlopeLines (lines : List (SlopeLine α)) : List (SlopeLine α) :=
  lines.filter (fun r => !(leB r.slopeDeg 0.1))

/-- flowgo_terrain_condition.py:73-121 `read_slope_from_file`, from the parsed lines (the text
    of the file is in Model/TextFile, the two are related by C73). -/
def Terrain.readSlope (t : Terrain α) (lines : List (SlopeLine α)) : Except Err (Terrain α) := do
  let kept := keepSlopeLines lines
  let slopes ← kept.mapM (fun r => radians r.slopeDeg)
  let slopes ← if t.smoothing then runningMean slopes t.smoothingPoints else .ok slopes
  let sp ← Spline.make (kept.map (·.dist)) slopes
  return { t with spline := some sp }

end PyFlowGo
