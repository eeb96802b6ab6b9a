import Verif.Model.Run
import Verif.Model.RunOuts
/-
  pyflowgo/plot_flowgo_results.py:25-340 `plot_all_results`: the data handed to matplotlib (drawing itself, titles, scales
  and labels are not modelled).
-/
namespace PyFlowGo
variable {α : Type} [Add α] [Sub α] [Mul α] [OfScientific α] [PyNum α]

/-- A line of the file as `csv.DictReader` delivers it. -/
abbrev DictRow (α : Type) := List (String × Option (Cell α))

omit [Add α] [Sub α] [Mul α] [OfScientific α] [PyNum α] in
/-- `csv.DictReader`: field names paired with the cells of each line. -/
def CsvTable.dicts (t : CsvTable (Cell α)) : List (DictRow α) := t.rows.map fun cells => t.header.zip cells

omit [Add α] [Sub α] [Mul α] [OfScientific α] [PyNum α] in
/-- The number written in a cell. -/
def Cell.value : Cell α → α
  | .num x => x
  | .text x => x

omit [Add α] [Sub α] [Mul α] [OfScientific α] [PyNum α] in
/-- `float(row[name])`: KeyError without the column, ValueError on the empty text. -/
def rowFloat (r : DictRow α) (name : String) : Except Err α :=
  match lookup r name with
  | none => .error .keyError
  | some none => .error .valueError
  | some (some c) => .ok c.value

omit [Add α] [Sub α] [Mul α] [PyNum α] in
/-- plot_flowgo_results.py:150-168: the number, or 0.0 when the column is absent or the cell empty. -/
def rowFloatOrZero (r : DictRow α) (name : String) : α :=
  match lookup r name with
  | some (some c) => c.value
  | _ => 0.0

omit [Add α] [Sub α] [Mul α] [OfScientific α] [PyNum α] in
/-- plot_flowgo_results.py:171-173: nothing is appended when the column is absent or the cell empty. -/
def rowFloat? (r : DictRow α) (name : String) : Option α :=
  match lookup r name with
  | some (some c) => some c.value
  | _ => none

/-- What is read of one line, plot_flowgo_results.py:127-173. -/
structure PlotRow (α : Type) where
  distance : α
  slope : α
  temperature : α
  velocity : α
  viscosity : α
  yieldStrength : α
  crystal : α
  vesicle : α
  width : α
  effusionRate : α
  crustTemperature : α
  cover : α
  surfaceTemperature : α
  radiationTemperature : α
  radiation : α
  conduction : α
  convection : α
  snyder : Option α

omit [Add α] [Sub α] [Mul α] [PyNum α] in
/-- plot_flowgo_results.py:127-173, the columns in the order they are read; `tho_b`, `channel_depth`, `dphi_dtemp` and
    `dphi_dx` are read but not drawn. -/
def readPlotRow (r : DictRow α) : Except Err (PlotRow α) := do
  let distance ← rowFloat r "position"
  let slope ← rowFloat r "slope"
  let temperature ← rowFloat r "core_temperature"
  let velocity ← rowFloat r "mean_velocity"
  let viscosity ← rowFloat r "viscosity"
  let yieldStrength ← rowFloat r "tho_0"
  let _shear ← rowFloat r "tho_b"
  let crystal ← rowFloat r "crystal_fraction"
  let vesicle ← rowFloat r "vesicle_fraction"
  let width ← rowFloat r "channel_width"
  let _depth ← rowFloat r "channel_depth"
  let effusionRate ← rowFloat r "effusion_rate"
  let crustTemperature ← rowFloat r "crust_temperature"
  let cover ← rowFloat r "effective_cover_fraction"
  let _rate ← rowFloat r "dphi_dtemp"
  let _down ← rowFloat r "dphi_dx"
  let surfaceTemperature ← rowFloat r "characteristic_surface_temperature"
  return { distance, slope, temperature, velocity, viscosity, yieldStrength, crystal, vesicle, width, effusionRate,
           crustTemperature, cover, surfaceTemperature,
           radiationTemperature := rowFloatOrZero r "effective_radiation_temperature"
           radiation := rowFloatOrZero r "flowgofluxradiationheat"
           conduction := rowFloatOrZero r "flowgofluxconductionheat"
           convection := rowFloatOrZero r "flowgofluxforcedconvectionheat"
           snyder := rowFloat? r "flowgofluxsnyderheat" }

/-- The curves drawn for one file, plot_flowgo_results.py:212-325. All but the first are drawn against `distance`. -/
structure PlotCurves (α : Type) where
  distance : List α
  temperature : List α
  velocity : List α
  viscosity : List α
  yieldStrength : List α
  width : List α
  crystal : List α
  vesicle : List α
  convection : List α
  conduction : List α
  radiation : List α
  snyder : List α
  cover : List α
  crustTemperature : List α
  radiationTemperature : List α
  surfaceTemperature : List α
  slope : List α

omit [Add α] [Sub α] in
/-- `math.degrees(x)` = x * 180 / pi. -/
def degrees (x : α) : Except Err α := PyNum.div (x * 180.0) PyNum.pi

omit [Add α] in
/-- plot_flowgo_results.py:89-325 for one file. `q` tells whether the local variable `qsnyder` is already bound (it is set
    at line 173, never reset, and read at line 292: UnboundLocalError, a NameError, if no line of this or an earlier file
    had a number in `flowgofluxsnyderheat`). matplotlib raises ValueError when a curve has not as many points as
    `distance`, which can only happen to the Snyder curve. -/
def plotFile (q : Bool) (t : CsvTable (Cell α)) : Except Err (PlotCurves α × Bool) :=
  match t.dicts with
  | [] => .error .stopIteration
  | first :: rest => do
    let _rate ← rowFloat first "effusion_rate"
    let rows ← rest.mapM readPlotRow
    let distance := rows.map (·.distance)
    let _ ← maxList distance
    let _ ← listGet distance 1
    let slope ← rows.mapM fun r => degrees r.slope
    let snyder := rows.filterMap (·.snyder)
    let q' := q || !snyder.isEmpty
    if !q' then .error .nameError
    else if snyder.length != distance.length then .error .valueError
    else
      return ({ distance, temperature := rows.map fun r => r.temperature - 273.15, velocity := rows.map (·.velocity),
                viscosity := rows.map (·.viscosity), yieldStrength := rows.map (·.yieldStrength),
                width := rows.map (·.width), crystal := rows.map (·.crystal), vesicle := rows.map (·.vesicle),
                convection := rows.map (·.convection), conduction := rows.map (·.conduction),
                radiation := rows.map (·.radiation), snyder, cover := rows.map (·.cover),
                crustTemperature := rows.map fun r => r.crustTemperature - 273.15,
                radiationTemperature := rows.map fun r => r.radiationTemperature - 273.15,
                surfaceTemperature := rows.map fun r => r.surfaceTemperature - 273.15, slope }, q')

omit [Add α] in
/-- plot_flowgo_results.py:89-325, the loop over the files. -/
def plotLoop (results : String → Option (CsvTable (Cell α))) : Bool → List String → Except Err (List (PlotCurves α))
  | _, [] => .ok []
  | q, name :: rest =>
    match results name with
    | none => .error .fileNotFound
    | some t => do
      let (c, q') ← plotFile q t
      let cs ← plotLoop results q' rest
      return c :: cs

omit [Add α] in
/-- plot_flowgo_results.py:25-340. `json_data.get('slope_file')` gives None without the entry, and `open` takes only a path
    (integers, which `open` takes as file descriptors, are not modelled). The slope profile itself is drawn as it is
    (line 84). -/
def plotAll (env : Env α) (p : Proc α) (names : List String) (jsonFile : String) :
    Except Err (List (SlopeLine α) × List (PlotCurves α)) :=
  match lookup p.json (env.canon jsonFile) with
  | none => .error .fileNotFound
  | some (.obj l) =>
    match lookup l "slope_file" with
    | some (.str s) =>
      match env.slopeFile s with
      | none => .error .fileNotFound
      | some lines => do
        let cs ← plotLoop (fun name => lookup p.results (env.canon name)) false names
        return (lines, cs)
    | _ => .error .typeError
  | some _ => .error .attributeError

end PyFlowGo
