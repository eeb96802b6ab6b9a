import Verif.Model.Factory
import Verif.Model.Csv
/-
  pyflowgo/run_flowgo.py
-/
namespace PyFlowGo
variable {α : Type}

/-- `str.isspace` as used by `str.strip()` (the code points Python strips). -/
def pySpace (c : Char) : Bool :=
  let n := c.toNat
  (9 ≤ n && n ≤ 13) || (28 ≤ n && n ≤ 32) || n == 0x85 || n == 0xa0 || n == 0x1680 ||
  (0x2000 ≤ n && n ≤ 0x200a) || n == 0x2028 || n == 0x2029 || n == 0x202f || n == 0x205f || n == 0x3000

/-- `s.strip()` on the list of characters. -/
def pyStrip (s : List Char) : List Char :=
  ((s.dropWhile pySpace).reverse.dropWhile pySpace).reverse

/-- `s.lower()`: only ASCII letters are mapped. No other character lowers to one of the letters of
    "true", the only text it is compared with. -/
def pyLower (s : List Char) : List Char := s.map Char.toLower

/-- `bool(v)` of a value that is not a string. -/
def Json.truthy [OfScientific α] [PyNum α] : Json α → Bool
  | .null => false
  | .bool b => b
  | .int n => n != 0
  | .num x => !(eqB x 0.0)
  | .str s => !s.isEmpty
  | .arr l => !l.isEmpty
  | .obj l => !l.isEmpty

/-- run_flowgo.py:56-61: normalisation of `mass_conservation`. -/
def massConservationOf [OfScientific α] [PyNum α] (raw : Json α) : Bool :=
  match raw with
  | .str s => pyLower (pyStrip s.toList) == "true".toList
  | v => v.truthy

/-- run_flowgo.py:56 `data['terrain_conditions'].get('mass_conservation', False)`
    (AttributeError on a value that is not an object). -/
def rawMassConservation (data : Json α) : Except Err (Json α) := do
  let tc ← data.get "terrain_conditions"
  match tc with
  | .obj l => .ok ((lookup l "mass_conservation").getD (.bool false))
  | _ => .error .attributeError

/-- `f"{v}"`. -/
def Json.show (env : Env α) : Json α → String
  | .str s => s
  | .int n => toString n
  | .bool true => "True"
  | .bool false => "False"
  | .null => "None"
  | .num x => env.showNum x
  | v => env.showOther v

/-- `os.path.join(a, b)` (POSIX). -/
def pathJoin (a b : String) : String :=
  if b.toList.head? == some '/' then b
  else if a.isEmpty || a.toList.getLast? == some '/' then a ++ b
  else a ++ "/" ++ b

/-- The result file name: run_flowgo.py:107 and 120, run_flowgo_effusion_rate_array.py:67. -/
def resultFileName (folder lavaName rate : String) : String :=
  pathJoin folder ("results_flowgo_" ++ lavaName ++ "_" ++ rate ++ "m3s.csv")

/-- `if key not in data: raise ValueError(...)` followed by `data[key]`: run_flowgo.py:43-54, 114-118. -/
def requireTop (data : Json α) (key : String) : Except Err (Json α) := do
  let b ← data.has key
  if b then data.get key else .error .valueError

/-- run_flowgo.py:42-54: the entries read by `run` itself. -/
structure RunConfig (α : Type) where
  rate : Json α
  lavaName : Json α
  slopeFile : Json α
  stepSize : α
  massConservation : Bool

variable [Add α] [Sub α] [Mul α] [Neg α] [OfScientific α] [PyNum α]

omit [Add α] [Sub α] [Mul α] [Neg α] in
/-- run_flowgo.py:42-61. -/
def readRunConfig (env : Env α) (data : Json α) : Except Err (RunConfig α) := do
  let rate ← data.get "effusion_rate_init"
  let lavaName ← requireTop data "lava_name"
  let slopeFile ← requireTop data "slope_file"
  let sz ← requireTop data "step_size"
  let stepSize ← sz.toFloat env
  let raw ← rawMassConservation data
  return { rate, lavaName, slopeFile, stepSize, massConservation := massConservationOf raw }

omit [Neg α] in
/-- run_flowgo.py:69-71 `read_slope_from_file(slope_file)`; `None` means the hard-coded default
    (flowgo_terrain_condition.py:74-75). A value that is not a path is a TypeError (`open`; integers,
    which `open` takes as file descriptors, are not modelled). -/
def loadSlope (env : Env α) (t : Terrain α) (slopeFile : Json α) : Except Err (Terrain α) :=
  let path := match slopeFile with
    | .str s => some s
    | .null => some "../MaunaUlu74/DEM_maunaulu74.txt"
    | _ => none
  match path with
  | none => .error .typeError
  | some p => match env.slopeFile p with
    | none => .error .fileNotFound
    | some lines => t.readSlope lines

/-- Everything `run` builds before the first mutation of the log. -/
structure Prepared (α : Type) where
  cfg : RunConfig α
  integrator : Integrator α
  world : World α

/-- run_flowgo.py:38-101: configuration, terrain, factory, integrator, initial state. None of this
    touches the log, which is passed through. The integrator re-reads `effusion_rate_init`, `width`,
    `depth` (flowgo_integrator.py:219-224), the same entries as the terrain; flowgo_state.py:81-86 reads
    position and time. -/
def prepare (env : Env α) (data : Json α) (log : Log (Cell α)) : Except Err (Prepared α) := do
  let cfg ← readRunConfig env data
  let t0 ← buildTerrain env data
  let t ← loadSlope env t0 cfg.slopeFile
  let models ← factory env data
  let pos ← getF env data "lava_state" "position"
  let time ← getF env data "lava_state" "time"
  let st ← initialState models t pos time
  return { cfg, integrator := { dx := cfg.stepSize, models, massConservation := cfg.massConservation },
           world := newWorld t st log }

/-- run_flowgo.py:103-106: depth search, then the loop (at most `fuel` iterations). -/
def simulateOn (grid : List α) (fuel : Nat) (g : Integrator α) (w : World α) :
    Option (Except Err Unit × World α) :=
  match initEffusionRateOn grid g.models.lava w with
  | (.ok _, w') => runLoop g fuel w'
  | (.error e, w') => some (.error e, w')

/-- The process: the JSON files and result files on disk and the singleton log. -/
structure Proc (α : Type) where
  json : List (String × Json α)
  results : List (String × CsvTable (Cell α))
  log : Log (Cell α)

omit [Add α] [Sub α] [Mul α] [Neg α] [OfScientific α] [PyNum α] in
/-- Write a file: later writes hide earlier ones. -/
def writeFile {ν : Type} (fs : List (String × ν)) (path : String) (v : ν) : List (String × ν) :=
  (path, v) :: fs

/-- run_flowgo.py:30-35, `RunFlowgo()`: clears the log. -/
def newRunner (p : Proc α) : Proc α := { p with log := p.log.clear }

/-- run_flowgo.py:37-109 `run(json_file, path_to_folder)` on a runner, with the depth grid as a
    parameter; `none`: the loop is still running after `fuel` iterations.  If writing the result file
    raised, Python would leave a truncated file; property C04 shows it does not raise. -/
def runOn (grid : List α) (fuel : Nat) (env : Env α) (jsonFile folder : String) (p : Proc α) :
    Option (Except Err Unit × Proc α) :=
  match lookup p.json (env.canon jsonFile) with
  | none => some (.error .fileNotFound, p)
  | some data =>
    match prepare env data p.log with
    | .error e => some (.error e, p)
    | .ok pr =>
      match simulateOn grid fuel pr.integrator pr.world with
      | none => none
      | some (.error e, w) => some (.error e, { p with log := w.log })
      | some (.ok _, w) =>
        match writeValues w.log with
        | .error e => some (.error e, { p with log := w.log })
        | .ok none => some (.ok (), { p with log := w.log })
        | .ok (some t) =>
          let name := resultFileName folder (pr.cfg.lavaName.show env) (pr.cfg.rate.show env)
          some (.ok (), { p with log := w.log, results := writeFile p.results (env.canon name) t })

/-- run_flowgo.py:37-109 with the real grid. -/
def run (fuel : Nat) (env : Env α) (jsonFile folder : String) (p : Proc α) :
    Option (Except Err Unit × Proc α) := runOn depthGrid fuel env jsonFile folder p

omit [Add α] [Sub α] [Mul α] [Neg α] [OfScientific α] [PyNum α] in
/-- run_flowgo.py:111-123 `get_file_name_results`. -/
def getFileNameResults (env : Env α) (folder jsonFile : String) (p : Proc α) : Except Err String :=
  match lookup p.json (env.canon jsonFile) with
  | none => .error .fileNotFound
  | some data => do
    let rate ← data.get "effusion_rate_init"
    let lavaName ← requireTop data "lava_name"
    return resultFileName folder (lavaName.show env) (rate.show env)

end PyFlowGo
