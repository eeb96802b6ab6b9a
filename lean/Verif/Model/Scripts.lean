import Verif.Model.FieldPlot
/-
  The scripts of the package on the texts of the files: main_run_flowgo.py, main_plot_flowgo_results.py,
  main_run_and_plot_flowgo.py, Venus/main_flowgo_Venus_Tolba.py, MaunaUlu74/main_flowgo_MU74_paper.py. The paths written in the
  scripts are parameters. Axis settings, legends, titles and the image files are not part of the model.
-/
namespace PyFlowGo
variable {α : Type} [Add α] [Sub α] [Mul α] [Neg α] [OfScientific α] [PyNum α]

omit [Add α] [Sub α] [Mul α] [Neg α] in
/-- run_flowgo.py:111-123 `get_file_name_results` on the texts. -/
def fileNameText (F : TextFormat α) (folder jsonFile : String) (disk : List (String × List Char)) : Except Err String :=
  match lookup disk (F.canon jsonFile) with
  | none => .error .fileNotFound
  | some text => do
    let data ← jsonLoad F.float text
    getFileNameResults (textEnv F disk) folder jsonFile ⟨[(F.canon jsonFile, data)], [], []⟩

omit [Add α] [Sub α] [Mul α] [Neg α] [OfScientific α] [PyNum α] in
/-- main_run_flowgo.py:37-39, main_plot_flowgo_results.py:41-43, main_run_and_plot_flowgo.py:35-37:
    `json.load(file).get('slope_file')`. The value is not used. -/
def peekConfig (F : TextFormat α) (jsonFile : String) (disk : List (String × List Char)) : Except Err Unit :=
  match lookup disk (F.canon jsonFile) with
  | none => .error .fileNotFound
  | some text => do
    let data ← jsonLoad F.float text
    match data with
    | .obj _ => return ()
    | _ => .error .attributeError

/-- `flowgo.run(json_file, path_to_folder)` followed by `get_file_name_results`: main_run_flowgo.py:44-46,
    main_run_and_plot_flowgo.py:43-47, main_flowgo_Venus_Tolba.py:37-39, main_flowgo_MU74_paper.py:37-39. -/
def runAndName (grid : List α) (fuel : Nat) (F : TextFormat α) (jsonFile folder : String) (disk : List (String × List Char)) :
    Option (Except Err String × List (String × List Char)) :=
  match runTextOn grid fuel F jsonFile folder disk with
  | none => none
  | some (.error e, d) => some (.error e, d)
  | some (.ok _, d) => some (fileNameText F folder jsonFile d, d)

/-- main_run_flowgo.py:28-62: the name it prints. -/
def mainRun (grid : List α) (fuel : Nat) (F : TextFormat α) (jsonFile folder : String) (disk : List (String × List Char)) :
    Option (Except Err String × List (String × List Char)) :=
  match peekConfig F jsonFile disk with
  | .error e => some (.error e, disk)
  | .ok _ => runAndName grid fuel F jsonFile folder disk

omit [Add α] [Neg α] in
/-- main_plot_flowgo_results.py:22-46. -/
def mainPlot (F : TextFormat α) (folder : String) (names : List String) (jsonFile : String) (disk : List (String × List Char)) :
    Except Err (List (α × α × α) × List (List Char × PlotCurves α)) := do
  peekConfig F jsonFile disk
  plotAllText F folder names jsonFile disk

/-- main_run_and_plot_flowgo.py:26-70: run, then draw the result together with another one. -/
def mainRunAndPlot (grid : List α) (fuel : Nat) (F : TextFormat α) (jsonFile folder compare : String) (disk : List (String × List Char)) :
    Option (Except Err (List (α × α × α) × List (List Char × PlotCurves α)) × List (String × List Char)) :=
  match mainRun grid fuel F jsonFile folder disk with
  | none => none
  | some (.error e, d) => some (.error e, d)
  | some (.ok name, d) => some (plotAllText F folder [name, compare] jsonFile d, d)

/-- What is used of a line of a result file, main_flowgo_Venus_Tolba.py:153-182. -/
structure VenusRow (α : Type) where
  field : FieldRow α
  snyderTemperature : α
  snyder : α

omit [Add α] [Sub α] [Mul α] [Neg α] [OfScientific α] [PyNum α] in
/-- main_flowgo_Venus_Tolba.py:153-182: the twenty columns of `readFieldRow` and the two of the Snyder model. The order of the
    reads differs from the code for the last five columns, which affects only which of two exceptions is raised. -/
def readVenusRow (pf : List Char → Option α) (r : List (List Char × Option (List Char))) : Except Err (VenusRow α) := do
  let field ← readFieldRow pf r
  let snyderTemperature ← dictFloat pf r "effective_temperature_snyder"
  let snyder ← dictFloat pf r "flowgofluxsnyderheat"
  return { field, snyderTemperature, snyder }

/-- The curves of one result, main_flowgo_Venus_Tolba.py:221-355: temperatures stay in kelvin. -/
structure VenusCurves (α : Type) where
  distance : List α
  temperature : List α
  velocity : List α
  width : List α
  crystal : List α
  viscosity : List α
  yieldStrength : List α
  convection : List α
  conduction : List α
  radiation : List α
  snyder : List α
  cover : List α
  crustTemperature : List α
  radiationTemperature : List α
  surfaceTemperature : List α
  snyderTemperature : List α
  slope : List α

omit [Add α] [Sub α] [Neg α] in
/-- main_flowgo_Venus_Tolba.py:149-216 for the text of one result. -/
def venusResult (pf : List Char → Option α) (text : List Char) : Except Err (VenusCurves α) := do
  let dicts ← dictRead ',' text
  let rows ← dicts.mapM (readVenusRow pf)
  let distance := rows.map (·.field.distance)
  let _ ← maxList distance
  let _ ← listGet distance 1
  let slope ← rows.mapM fun r => degrees r.field.slope
  return { distance, temperature := rows.map (·.field.temperature), velocity := rows.map (·.field.velocity),
           width := rows.map (·.field.width), crystal := rows.map (·.field.crystal), viscosity := rows.map (·.field.viscosity),
           yieldStrength := rows.map (·.field.yieldStrength), convection := rows.map (·.field.convection),
           conduction := rows.map (·.field.conduction), radiation := rows.map (·.field.radiation), snyder := rows.map (·.snyder),
           cover := rows.map (·.field.cover), crustTemperature := rows.map (·.field.crustTemperature),
           radiationTemperature := rows.map (·.field.radiationTemperature),
           surfaceTemperature := rows.map (·.field.surfaceTemperature), snyderTemperature := rows.map (·.snyderTemperature), slope }

/-- main_flowgo_Venus_Tolba.py:50 and 219. -/
def venusLabel (name : String) : List Char := stripChars ".csv".toList (stripChars ".results/results_flowgo_".toList name.toList)

omit [Add α] [Sub α] [Neg α] in
/-- main_flowgo_Venus_Tolba.py:122-361, the loop over the results. -/
def venusLoop (F : TextFormat α) (disk : List (String × List Char)) : List String → Except Err (List (List Char × VenusCurves α))
  | [] => .ok []
  | name :: rest => do
    let c ← withFile F disk name (venusResult F.float)
    let cs ← venusLoop F disk rest
    return (venusLabel name, c) :: cs

omit [Add α] [Sub α] [Mul α] [Neg α] [OfScientific α] [PyNum α] in
/-- main_flowgo_Venus_Tolba.py:66-88: of the profile only the slope and the distance are read. -/
def venusProfile (pf : List Char → Option α) (lines : List (List (List Char))) : Except Err (List (α × α)) :=
  lines.mapM fun fs => do
    let slope ← floatField pf fs 4
    let distance ← floatField pf fs 3
    return (distance, slope)

omit [Add α] [Sub α] [Mul α] [Neg α] in
/-- Python's `min` of a list; ValueError on the empty list. -/
def minList : List α → Except Err α
  | [] => .error .valueError
  | x :: rest => .ok (rest.foldl pyMin x)

/-- All that the script draws: the profile (distance, slope), the labelled curves, and the heights of the run-out mark in the
    panels of the slope, the core temperature (lower and upper end) and the velocity, lines 362-366. -/
structure VenusFigure (α : Type) where
  profile : List (α × α)
  curves : List (List Char × VenusCurves α)
  markSlope : α
  markCold : α
  markHot : α
  markVelocity : α

/-- main_flowgo_Venus_Tolba.py:28-389: run, then draw the result together with another one. The run-out mark takes its heights
    from the last result. -/
def venusScript (grid : List α) (fuel : Nat) (F : TextFormat α) (jsonFile folder other slopeFile : String)
    (disk : List (String × List Char)) : Option (Except Err (VenusFigure α) × List (String × List Char)) :=
  match runAndName grid fuel F jsonFile folder disk with
  | none => none
  | some (.error e, d) => some (.error e, d)
  | some (.ok name, d) => some ((do
      let profile ← withFile F d slopeFile fun t => venusProfile F.float (dataLines t)
      let curves ← venusLoop F d [name, other]
      match curves.getLast? with
      | none => .error .nameError
      | some (_, c) => do
        let markSlope ← maxList c.slope
        let markCold ← minList c.temperature
        let markHot ← maxList c.temperature
        let markVelocity ← maxList c.velocity
        return { profile, curves, markSlope, markCold, markHot, markVelocity }), d)

/-- main_flowgo_MU74_paper.py:256 with the folder '' of line 31 (`strip('')` takes nothing away). -/
def maunaUluLabel (name : String) : List Char := stripChars ".csv".toList (stripChars "results/results_flowgo_".toList name.toList)

omit [Add α] [Sub α] [Mul α] [Neg α] [OfScientific α] [PyNum α] in
/-- A table of field data with the given columns and delimiter, main_flowgo_MU74_paper.py:93-115: the numbers of each line. -/
def fieldTable (pf : List Char → Option α) (delimiter : Char) (columns : List String) (text : List Char) : Except Err (List (List α)) := do
  let dicts ← dictRead delimiter text
  dicts.mapM fun r => columns.mapM (dictFloat pf r)

/-- main_flowgo_MU74_paper.py:95-101, in the order they are read. -/
def glassColumns : List String :=
  ["Distance_surge (m)", "Temperature_surge C (glass method)", "Distance_pond (m)", "Temperature_pond C (glass method)",
   "Error_T_pond", "Error_T_surge"]

/-- main_flowgo_MU74_paper.py:105-110. -/
def crystalColumns : List String :=
  ["Distance_surge (m)", "Xstals_surge", "Distance_pond (m)", "Xstals_pond", "Error"]

omit [Add α] [Neg α] in
/-- main_flowgo_MU74_paper.py:170-382, the loop over the results; `fieldResult` computes the same curves. -/
def maunaUluLoop (F : TextFormat α) (disk : List (String × List Char)) : List String → Except Err (List (List Char × FieldCurves α))
  | [] => .ok []
  | name :: rest => do
    let c ← withFile F disk name (fieldResult F.float)
    let cs ← maunaUluLoop F disk rest
    return (maunaUluLabel name, c) :: cs

omit [Add α] [Sub α] [Mul α] [Neg α] [OfScientific α] [PyNum α] in
/-- main_flowgo_MU74_paper.py:117-137: distance, slope, altitude; latitude and longitude are converted too, and not used. -/
def fullRows (pf : List Char → Option α) (lines : List (List (List Char))) : Except Err (List (α × α × α)) :=
  lines.mapM fun fs => do
    let slope ← floatField pf fs 4
    let distance ← floatField pf fs 3
    let elevation ← floatField pf fs 2
    let _ ← floatField pf fs 0
    let _ ← floatField pf fs 1
    return (distance, slope, elevation)

/-- All that the script draws. -/
structure MaunaUluFigure (α : Type) where
  glass : List (List α)
  crystal : List (List α)
  width : List (α × α)
  profile : List (α × α × α)
  curves : List (List Char × FieldCurves α)

/-- main_flowgo_MU74_paper.py:28-418: run, then draw the result together with other ones and the field data. -/
def maunaUluScript (grid : List α) (fuel : Nat) (F : TextFormat α) (jsonFile folder : String) (others : List String)
    (glassFile crystalFile widthFile slopeFile : String) (disk : List (String × List Char)) :
    Option (Except Err (MaunaUluFigure α) × List (String × List Char)) :=
  match runAndName grid fuel F jsonFile folder disk with
  | none => none
  | some (.error e, d) => some (.error e, d)
  | some (.ok name, d) => some ((do
      let glass ← withFile F d glassFile (fieldTable F.float ';' glassColumns)
      let crystal ← withFile F d crystalFile (fieldTable F.float ';' crystalColumns)
      let width ← withFile F d widthFile (fieldPoints F.float "Distance (m)" "Measured Width (m)")
      let profile ← withFile F d slopeFile fun t => fullRows F.float (dataLines t)
      let curves ← maunaUluLoop F d (name :: others)
      return { glass, crystal, width, profile, curves }), d)

end PyFlowGo
