import Verif.Model.PlotText
/-
  main_plot_results_field_data.py on the texts of the files: results drawn together with field measurements.
-/
namespace PyFlowGo
variable {α : Type} [Add α] [Sub α] [Mul α] [Neg α] [OfScientific α] [PyNum α]

/-- What is used of a line of a result file, main_plot_results_field_data.py:156-178. -/
structure FieldRow (α : Type) where
  distance : α
  slope : α
  temperature : α
  velocity : α
  viscosity : α
  yieldStrength : α
  crystal : α
  width : α
  crustTemperature : α
  cover : α
  surfaceTemperature : α
  radiationTemperature : α
  convection : α
  conduction : α
  radiation : α

omit [Add α] [Sub α] [Mul α] [Neg α] [OfScientific α] [PyNum α] in
/-- main_plot_results_field_data.py:157-178: twenty columns, all required, in the order they are read. -/
def readFieldRow (pf : List Char → Option α) (r : List (List Char × Option (List Char))) : Except Err (FieldRow α) := do
  let distance ← dictFloat pf r "position"
  let slope ← dictFloat pf r "slope"
  let temperature ← dictFloat pf r "core_temperature"
  let velocity ← dictFloat pf r "mean_velocity"
  let viscosity ← dictFloat pf r "viscosity"
  let yieldStrength ← dictFloat pf r "tho_0"
  let _shear ← dictFloat pf r "tho_b"
  let crystal ← dictFloat pf r "crystal_fraction"
  let width ← dictFloat pf r "channel_width"
  let _depth ← dictFloat pf r "channel_depth"
  let _effusion ← dictFloat pf r "effusion_rate"
  let crustTemperature ← dictFloat pf r "crust_temperature"
  let cover ← dictFloat pf r "effective_cover_fraction"
  let _rate ← dictFloat pf r "dphi_dtemp"
  let _down ← dictFloat pf r "dphi_dx"
  let surfaceTemperature ← dictFloat pf r "characteristic_surface_temperature"
  let radiationTemperature ← dictFloat pf r "effective_radiation_temperature"
  let convection ← dictFloat pf r "flowgofluxforcedconvectionheat"
  let conduction ← dictFloat pf r "flowgofluxconductionheat"
  let radiation ← dictFloat pf r "flowgofluxradiationheat"
  return { distance, slope, temperature, velocity, viscosity, yieldStrength, crystal, width, crustTemperature, cover,
           surfaceTemperature, radiationTemperature, convection, conduction, radiation }

/-- The curves drawn for one result, main_plot_results_field_data.py:218-349. -/
structure FieldCurves (α : Type) where
  distance : List α
  temperature : List α
  velocity : List α
  viscosity : List α
  yieldStrength : List α
  width : List α
  crystal : List α
  convection : List α
  conduction : List α
  radiation : List α
  cover : List α
  crustTemperature : List α
  radiationTemperature : List α
  surfaceTemperature : List α
  slope : List α

omit [Add α] [Neg α] in
/-- main_plot_results_field_data.py:152-207 for the text of one result: unlike `plot_all_results`, the first line is drawn too. -/
def fieldResult (pf : List Char → Option α) (text : List Char) : Except Err (FieldCurves α) := do
  let dicts ← dictRead ',' text
  let rows ← dicts.mapM (readFieldRow pf)
  let distance := rows.map (·.distance)
  let _ ← maxList distance
  let _ ← listGet distance 1
  let slope ← rows.mapM fun r => degrees r.slope
  return { distance, temperature := rows.map fun r => r.temperature - 273.15, velocity := rows.map (·.velocity),
           viscosity := rows.map (·.viscosity), yieldStrength := rows.map (·.yieldStrength), width := rows.map (·.width),
           crystal := rows.map (·.crystal), convection := rows.map (·.convection), conduction := rows.map (·.conduction),
           radiation := rows.map (·.radiation), cover := rows.map (·.cover),
           crustTemperature := rows.map fun r => r.crustTemperature - 273.15,
           radiationTemperature := rows.map fun r => r.radiationTemperature - 273.15,
           surfaceTemperature := rows.map fun r => r.surfaceTemperature - 273.15, slope }

omit [Add α] [Sub α] [Mul α] [Neg α] [OfScientific α] [PyNum α] in
/-- main_plot_results_field_data.py:82-99: the two columns of a table of field data. -/
def fieldPoints (pf : List Char → Option α) (x y : String) (text : List Char) : Except Err (List (α × α)) := do
  let dicts ← dictRead ',' text
  dicts.mapM fun r => do
    let a ← dictFloat pf r x
    let b ← dictFloat pf r y
    return (a, b)

/-- `s.strip(chars)`. -/
def stripChars (chars s : List Char) : List Char :=
  ((s.dropWhile (chars.contains ·)).reverse.dropWhile (chars.contains ·)).reverse

/-- main_plot_results_field_data.py:215. -/
def fieldLabel (name : String) : List Char := stripChars ".csv".toList (replaceChars "results_".toList [] 0 name.toList)

omit [Add α] [Neg α] in
/-- main_plot_results_field_data.py:126-349, the loop over the results. -/
def fieldLoop (F : TextFormat α) (disk : List (String × List Char)) : List String → Except Err (List (List Char × FieldCurves α))
  | [] => .ok []
  | name :: rest =>
    match lookup disk (F.canon name) with
    | none => .error .fileNotFound
    | some text => do
      let c ← fieldResult F.float text
      let cs ← fieldLoop F disk rest
      return (fieldLabel name, c) :: cs

/-- All that is drawn: the slope profile (distance, slope, altitude), the labelled curves of the results, and the field data as
    pairs of distance and temperature in °C, crystal fraction, width. -/
structure FieldFigure (α : Type) where
  slope : List (α × α × α)
  curves : List (List Char × FieldCurves α)
  temperature : List (α × α)
  crystal : List (α × α)
  width : List (α × α)

omit [Add α] [Sub α] [Mul α] [Neg α] [OfScientific α] [PyNum α] in
/-- A file that is opened and handed to `f`. -/
def withFile {β : Type} (F : TextFormat α) (disk : List (String × List Char)) (path : String) (f : List Char → Except Err β) : Except Err β :=
  match lookup disk (F.canon path) with
  | none => .error .fileNotFound
  | some text => f text

omit [Add α] [Neg α] in
/-- main_plot_results_field_data.py:26-376, with the paths written in the script as parameters. The configuration is read for its
    slope file, which is then not used (line 47). Without a result the variable `ax2` of line 352 is unbound. -/
def fieldPlot (F : TextFormat α) (names : List String) (jsonFile slopeFile tempFile crystalFile widthFile : String)
    (disk : List (String × List Char)) : Except Err (FieldFigure α) := do
  let data ← withFile F disk jsonFile (jsonLoad F.float)
  match data with
  | .obj _ => do
    let slope ← withFile F disk slopeFile fun t => plotRows F.float (dataLines t)
    let temperature ← withFile F disk tempFile (fieldPoints F.float "Distance (m)" "Temperature C (glass method)")
    let crystal ← withFile F disk crystalFile (fieldPoints F.float "Distance (m)" "Total xtals")
    let width ← withFile F disk widthFile (fieldPoints F.float "Distance (m)" "Measured Width (m)")
    let curves ← fieldLoop F disk names
    if names.isEmpty then .error .nameError
    else return { slope, curves, temperature, crystal, width }
  | _ => .error .attributeError

end PyFlowGo
