import Verif.Spec.PlotText
import Verif.Model.FieldPlot
/-
  What the field-data figure shows, in terms of the lines of the files.
-/
namespace PyFlowGo.Spec

/-- The columns without which a result cannot be drawn together with field data. -/
def fieldColumns : List String :=
  ["position", "slope", "core_temperature", "mean_velocity", "viscosity", "tho_0", "tho_b", "crystal_fraction", "channel_width",
   "channel_depth", "effusion_rate", "crust_temperature", "effective_cover_fraction", "dphi_dtemp", "dphi_dx",
   "characteristic_surface_temperature", "effective_radiation_temperature", "flowgofluxforcedconvectionheat",
   "flowgofluxconductionheat", "flowgofluxradiationheat"]

/-- The curves `c` show all the given lines. -/
structure FieldCurvesIn (pf : List Char → Option ℝ) (lines : List (List (List Char × Option (List Char)))) (c : FieldCurves ℝ) : Prop where
  distance : CurveIn pf lines "position" id c.distance
  temperature : CurveIn pf lines "core_temperature" celsius c.temperature
  velocity : CurveIn pf lines "mean_velocity" id c.velocity
  viscosity : CurveIn pf lines "viscosity" id c.viscosity
  yieldStrength : CurveIn pf lines "tho_0" id c.yieldStrength
  width : CurveIn pf lines "channel_width" id c.width
  crystal : CurveIn pf lines "crystal_fraction" id c.crystal
  convection : CurveIn pf lines "flowgofluxforcedconvectionheat" id c.convection
  conduction : CurveIn pf lines "flowgofluxconductionheat" id c.conduction
  radiation : CurveIn pf lines "flowgofluxradiationheat" id c.radiation
  cover : CurveIn pf lines "effective_cover_fraction" id c.cover
  crustTemperature : CurveIn pf lines "crust_temperature" celsius c.crustTemperature
  radiationTemperature : CurveIn pf lines "effective_radiation_temperature" celsius c.radiationTemperature
  surfaceTemperature : CurveIn pf lines "characteristic_surface_temperature" celsius c.surfaceTemperature
  slope : CurveIn pf lines "slope" inDegrees c.slope
  /-- every line has a number in each of the columns, also in those that are not drawn -/
  readable : ∀ name ∈ fieldColumns, ∀ line ∈ lines, ∃ x, dictFloat pf line name = .ok x

/-- The field measurements: one point per line, the numbers in the columns `x` and `y`. -/
def PointsIn (pf : List Char → Option ℝ) (x y : String) (lines : List (List (List Char × Option (List Char)))) (points : List (ℝ × ℝ)) :
    Prop := List.Forall₂ (fun line p => dictFloat pf line x = .ok p.1 ∧ dictFloat pf line y = .ok p.2) lines points

/-- The table on the disk shows these points. -/
def TableShows (F : TextFormat ℝ) (disk : List (String × List Char)) (path x y : String) (points : List (ℝ × ℝ)) : Prop :=
  ∃ text lines, lookup disk (F.canon path) = some text ∧ dictRead ',' text = .ok lines ∧ PointsIn F.float x y lines points

/-- What is drawn for one result: at least two lines, all of them shown. -/
def FieldDrawn (F : TextFormat ℝ) (disk : List (String × List Char)) (name : String) (c : FieldCurves ℝ) : Prop :=
  ∃ text lines, lookup disk (F.canon name) = some text ∧ dictRead ',' text = .ok lines ∧ 2 ≤ lines.length ∧ FieldCurvesIn F.float lines c

end PyFlowGo.Spec
