import Verif.Spec.RunOutSpec
import Verif.Model.Plot
import Verif.Model.RealNum
import Mathlib.Data.List.Forall2
/-
  What the curves drawn for a result file are, in terms of the rows of the result.
-/
namespace PyFlowGo.Spec

/-- The row has the number `x` in the column `name`. -/
def RowShows {α : Type} (r : Row (Cell α)) (name : String) (x : α) : Prop :=
  ∃ c, r.get? name = some c ∧ x = cellNumber c

/-- The row has the number `x` in the column `name`, or has no such column and `x` is 0. -/
def RowShowsOrZero (r : Row (Cell ℝ)) (name : String) (x : ℝ) : Prop :=
  RowShows r name x ∨ (r.get? name = none ∧ x = 0)

/-- The curve has one point per row, in order: the number of the column `name`, converted by `f`. -/
def CurveOf (rows : List (Row (Cell ℝ))) (name : String) (f : ℝ → ℝ) (ys : List ℝ) : Prop :=
  List.Forall₂ (fun r y => ∃ x, RowShows r name x ∧ y = f x) rows ys

/-- The same for a column that may be absent, in which case 0 stands for it. -/
def OptionalCurveOf (rows : List (Row (Cell ℝ))) (name : String) (f : ℝ → ℝ) (ys : List ℝ) : Prop :=
  List.Forall₂ (fun r y => ∃ x, RowShowsOrZero r name x ∧ y = f x) rows ys

/-- Kelvin to degrees Celsius. -/
noncomputable def celsius (k : ℝ) : ℝ := k - 273.15

/-- Radians to degrees. -/
noncomputable def inDegrees (x : ℝ) : ℝ := x * 180 / Real.pi

/-- The columns without which a row cannot be drawn. -/
def plotColumns : List String :=
  ["position", "slope", "core_temperature", "mean_velocity", "viscosity", "tho_0", "tho_b", "crystal_fraction",
   "vesicle_fraction", "channel_width", "channel_depth", "effusion_rate", "crust_temperature",
   "effective_cover_fraction", "dphi_dtemp", "dphi_dx", "characteristic_surface_temperature", "flowgofluxsnyderheat"]

/-- The curves `c` show the given rows. -/
structure CurvesOf (rows : List (Row (Cell ℝ))) (c : PlotCurves ℝ) : Prop where
  distance : CurveOf rows "position" id c.distance
  temperature : CurveOf rows "core_temperature" celsius c.temperature
  velocity : CurveOf rows "mean_velocity" id c.velocity
  viscosity : CurveOf rows "viscosity" id c.viscosity
  yieldStrength : CurveOf rows "tho_0" id c.yieldStrength
  width : CurveOf rows "channel_width" id c.width
  crystal : CurveOf rows "crystal_fraction" id c.crystal
  vesicle : CurveOf rows "vesicle_fraction" id c.vesicle
  convection : OptionalCurveOf rows "flowgofluxforcedconvectionheat" id c.convection
  conduction : OptionalCurveOf rows "flowgofluxconductionheat" id c.conduction
  radiation : OptionalCurveOf rows "flowgofluxradiationheat" id c.radiation
  snyder : CurveOf rows "flowgofluxsnyderheat" id c.snyder
  cover : CurveOf rows "effective_cover_fraction" id c.cover
  crustTemperature : CurveOf rows "crust_temperature" celsius c.crustTemperature
  radiationTemperature : OptionalCurveOf rows "effective_radiation_temperature" celsius c.radiationTemperature
  surfaceTemperature : CurveOf rows "characteristic_surface_temperature" celsius c.surfaceTemperature
  slope : CurveOf rows "slope" inDegrees c.slope

end PyFlowGo.Spec
