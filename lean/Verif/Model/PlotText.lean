import Verif.Model.Plot
import Verif.Model.RunText
/-
  pyflowgo/plot_flowgo_results.py:25-340 on the texts of the files.
-/
namespace PyFlowGo
variable {α : Type} [Add α] [Sub α] [Mul α] [Neg α] [OfScientific α] [PyNum α]

omit [Add α] [Sub α] [Mul α] [Neg α] [PyNum α] [OfScientific α] in
/-- plot_flowgo_results.py:148-173, `if name in row and row[name] != '': float(row[name])`; `none` is the else branch. A short
    line has None in its last columns: `float(None)`, TypeError. -/
def dictOptional (pf : List Char → Option α) (row : List (List Char × Option (List Char))) (name : String) : Except Err (Option α) :=
  match dictField row name with
  | .error _ => .ok none
  | .ok (some []) => .ok none
  | .ok _ => do
    let x ← dictFloat pf row name
    return some x

omit [Add α] [Sub α] [Mul α] [Neg α] [PyNum α] in
/-- plot_flowgo_results.py:127-173 for a line of the file. -/
def readPlotText (pf : List Char → Option α) (r : List (List Char × Option (List Char))) : Except Err (PlotRow α) := do
  let distance ← dictFloat pf r "position"
  let slope ← dictFloat pf r "slope"
  let temperature ← dictFloat pf r "core_temperature"
  let velocity ← dictFloat pf r "mean_velocity"
  let viscosity ← dictFloat pf r "viscosity"
  let yieldStrength ← dictFloat pf r "tho_0"
  let _shear ← dictFloat pf r "tho_b"
  let crystal ← dictFloat pf r "crystal_fraction"
  let vesicle ← dictFloat pf r "vesicle_fraction"
  let width ← dictFloat pf r "channel_width"
  let _depth ← dictFloat pf r "channel_depth"
  let effusionRate ← dictFloat pf r "effusion_rate"
  let crustTemperature ← dictFloat pf r "crust_temperature"
  let cover ← dictFloat pf r "effective_cover_fraction"
  let _rate ← dictFloat pf r "dphi_dtemp"
  let _down ← dictFloat pf r "dphi_dx"
  let surfaceTemperature ← dictFloat pf r "characteristic_surface_temperature"
  let radiationTemperature ← dictOptional pf r "effective_radiation_temperature"
  let radiation ← dictOptional pf r "flowgofluxradiationheat"
  let conduction ← dictOptional pf r "flowgofluxconductionheat"
  let convection ← dictOptional pf r "flowgofluxforcedconvectionheat"
  let snyder ← dictOptional pf r "flowgofluxsnyderheat"
  return { distance, slope, temperature, velocity, viscosity, yieldStrength, crystal, vesicle, width, effusionRate,
           crustTemperature, cover, surfaceTemperature,
           radiationTemperature := radiationTemperature.getD 0.0
           radiation := radiation.getD 0.0
           conduction := conduction.getD 0.0
           convection := convection.getD 0.0
           snyder }

omit [Add α] [Neg α] in
/-- plot_flowgo_results.py:119-325 for the text of one file; `q` as in `plotFile`. (`round` of line 122 raises on infinities
    and NaN only; they are no numbers here. The reader is lazy: on a malformed file an error of an earlier line comes first.) -/
def plotFileText (pf : List Char → Option α) (q : Bool) (text : List Char) : Except Err (PlotCurves α × Bool) := do
  let dicts ← dictRead ',' text
  match dicts with
  | [] => .error .stopIteration
  | first :: rest => do
    let _rate ← dictFloat pf first "effusion_rate"
    let rows ← rest.mapM (readPlotText pf)
    let distance := rows.map (·.distance)
    let _ ← maxList distance
    let _ ← listGet distance 1
    let slope ← rows.mapM fun r => degrees r.slope
    let snyder := rows.filterMap (·.snyder)
    let q' := q || !snyder.isEmpty
    if !q' then .error .nameError
    else if snyder.length != distance.length then .error .valueError
    else
      return ({ distance, temperature := rows.map fun r => r.temperature - 273.15, velocity := rows.map (·.velocity),
                viscosity := rows.map (·.viscosity), yieldStrength := rows.map (·.yieldStrength),
                width := rows.map (·.width), crystal := rows.map (·.crystal), vesicle := rows.map (·.vesicle),
                convection := rows.map (·.convection), conduction := rows.map (·.conduction),
                radiation := rows.map (·.radiation), snyder, cover := rows.map (·.cover),
                crustTemperature := rows.map fun r => r.crustTemperature - 273.15,
                radiationTemperature := rows.map fun r => r.radiationTemperature - 273.15,
                surfaceTemperature := rows.map fun r => r.surfaceTemperature - 273.15, slope }, q')

/-- `s.replace(old, new)` with an `old` that is not empty: from left to right, without overlap; with the empty `old` Python puts
    `new` between all characters, which does not happen here. `skip` counts the characters of an occurrence still to be
    passed over. -/
def replaceChars (old new : List Char) : Nat → List Char → List Char
  | _, [] => []
  | skip + 1, _ :: s => replaceChars old new skip s
  | 0, c :: s => if old.isPrefixOf (c :: s) then new ++ replaceChars old new (old.length - 1) s else c :: replaceChars old new 0 s

/-- plot_flowgo_results.py:91-93: the label of the curves of a file. -/
def plotLabel (folder name : String) : List Char :=
  let label := replaceChars (pathJoin folder "results_flowgo_").toList [] 0 name.toList
  if ".csv".toList.isSuffixOf label then label.take (label.length - 4) else label

omit [Add α] [Neg α] in
/-- plot_flowgo_results.py:89-325, the loop over the files: label and curves of each. -/
def plotLoopText (F : TextFormat α) (disk : List (String × List Char)) (folder : String) :
    Bool → List String → Except Err (List (List Char × PlotCurves α))
  | _, [] => .ok []
  | q, name :: rest =>
    match lookup disk (F.canon name) with
    | none => .error .fileNotFound
    | some text => do
      let (c, q') ← plotFileText F.float q text
      let cs ← plotLoopText F disk folder q' rest
      return (plotLabel folder name, c) :: cs

omit [Add α] [Neg α] in
/-- plot_flowgo_results.py:25-340 `plot_all_results(path_to_folder, filename_array, json_file)`: the slope profile (distance,
    slope, altitude; the altitude is not drawn) and the labelled curves of the files. Four image files are saved into the
    folder at the end, which are not part of the model. A `slope_file` that is not a text: see `plotAll`. -/
def plotAllText (F : TextFormat α) (folder : String) (names : List String) (jsonFile : String) (disk : List (String × List Char)) :
    Except Err (List (α × α × α) × List (List Char × PlotCurves α)) :=
  match lookup disk (F.canon jsonFile) with
  | none => .error .fileNotFound
  | some text => do
    let data ← jsonLoad F.float text
    match data with
    | .obj l =>
      match lookup l "slope_file" with
      | some (.str s) =>
        match lookup disk (F.canon s) with
        | none => .error .fileNotFound
        | some profile => do
          let slope ← plotRows F.float (dataLines profile)
          let cs ← plotLoopText F disk folder false names
          return (slope, cs)
      | _ => .error .typeError
    | _ => .error .attributeError

end PyFlowGo
