import Verif.Spec.FieldPlot
import Verif.Model.Scripts
/-
  What the figures of the two case studies show, in terms of the lines of the files.
-/
namespace PyFlowGo.Spec

/-- The columns without which the Venus script cannot draw a result. -/
def venusColumns : List String := fieldColumns ++ ["effective_temperature_snyder", "flowgofluxsnyderheat"]

/-- The curves `c` show all the given lines; temperatures are those of the file, in kelvin. -/
structure VenusCurvesIn (pf : List Char → Option ℝ) (lines : List (List (List Char × Option (List Char)))) (c : VenusCurves ℝ) : Prop where
  distance : CurveIn pf lines "position" id c.distance
  temperature : CurveIn pf lines "core_temperature" id c.temperature
  velocity : CurveIn pf lines "mean_velocity" id c.velocity
  viscosity : CurveIn pf lines "viscosity" id c.viscosity
  yieldStrength : CurveIn pf lines "tho_0" id c.yieldStrength
  width : CurveIn pf lines "channel_width" id c.width
  crystal : CurveIn pf lines "crystal_fraction" id c.crystal
  convection : CurveIn pf lines "flowgofluxforcedconvectionheat" id c.convection
  conduction : CurveIn pf lines "flowgofluxconductionheat" id c.conduction
  radiation : CurveIn pf lines "flowgofluxradiationheat" id c.radiation
  snyder : CurveIn pf lines "flowgofluxsnyderheat" id c.snyder
  cover : CurveIn pf lines "effective_cover_fraction" id c.cover
  crustTemperature : CurveIn pf lines "crust_temperature" id c.crustTemperature
  radiationTemperature : CurveIn pf lines "effective_radiation_temperature" id c.radiationTemperature
  surfaceTemperature : CurveIn pf lines "characteristic_surface_temperature" id c.surfaceTemperature
  snyderTemperature : CurveIn pf lines "effective_temperature_snyder" id c.snyderTemperature
  slope : CurveIn pf lines "slope" inDegrees c.slope
  /-- every line has a number in each of the columns, also in those that are not drawn -/
  readable : ∀ name ∈ venusColumns, ∀ line ∈ lines, ∃ x, dictFloat pf line name = .ok x

/-- What is drawn for one result: at least two lines, all of them shown. -/
def VenusDrawn (F : TextFormat ℝ) (disk : List (String × List Char)) (name : String) (c : VenusCurves ℝ) : Prop :=
  ∃ text lines, lookup disk (F.canon name) = some text ∧ dictRead ',' text = .ok lines ∧ 2 ≤ lines.length ∧ VenusCurvesIn F.float lines c

/-- The samples (distance, slope) of a profile file. -/
def SlopeSamples (pf : List Char → Option ℝ) (lines : List (List (List Char))) (samples : List (ℝ × ℝ)) : Prop :=
  List.Forall₂ (fun fields s => (∃ t, fields[3]? = some t ∧ pf t = some s.1) ∧ ∃ t, fields[4]? = some t ∧ pf t = some s.2) lines samples

/-- The samples (distance, slope, altitude) of a profile file whose other two columns are numbers as well. -/
def FullSamples (pf : List Char → Option ℝ) (lines : List (List (List Char))) (samples : List (ℝ × ℝ × ℝ)) : Prop :=
  ProfileSamples pf lines samples ∧ ∀ fields ∈ lines, ∀ i < 2, ∃ t x, fields[i]? = some t ∧ pf t = some x

/-- The table on the disk has exactly these numbers in the given columns, line by line. -/
def TableHas (F : TextFormat ℝ) (disk : List (String × List Char)) (path : String) (delimiter : Char) (columns : List String)
    (table : List (List ℝ)) : Prop :=
  ∃ text lines, lookup disk (F.canon path) = some text ∧ dictRead delimiter text = .ok lines ∧
    List.Forall₂ (fun line xs => List.Forall₂ (fun name x => dictFloat F.float line name = .ok x) columns xs) lines table

/-- The greatest and the least of some numbers. -/
def Highest (xs : List ℝ) (m : ℝ) : Prop := m ∈ xs ∧ ∀ x ∈ xs, x ≤ m
def Lowest (xs : List ℝ) (m : ℝ) : Prop := m ∈ xs ∧ ∀ x ∈ xs, m ≤ x

end PyFlowGo.Spec
