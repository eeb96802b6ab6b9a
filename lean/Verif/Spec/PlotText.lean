import Verif.Spec.PlotSpec
import Verif.Spec.RunText
import Verif.Model.PlotText
/-
  What the curves drawn for the text of a result file are, in terms of the lines of the file.
-/
namespace PyFlowGo.Spec

/-- One point per line, in order: the number in the column `name`, converted by `f`. -/
def CurveIn (pf : List Char → Option ℝ) (lines : List (List (List Char × Option (List Char)))) (name : String) (f : ℝ → ℝ) (ys : List ℝ) :
    Prop := List.Forall₂ (fun line y => ∃ x, dictFloat pf line name = .ok x ∧ y = f x) lines ys

/-- The same, with 0 for a blank cell or a missing column. -/
def OptionalIn (pf : List Char → Option ℝ) (lines : List (List (List Char × Option (List Char)))) (name : String) (f : ℝ → ℝ)
    (ys : List ℝ) : Prop :=
  List.Forall₂ (fun line y => ∃ x, (Blank line name ∧ x = 0 ∨ ¬ Blank line name ∧ dictFloat pf line name = .ok x) ∧ y = f x) lines ys

/-- The curves `c` show the given lines. -/
structure CurvesIn (pf : List Char → Option ℝ) (lines : List (List (List Char × Option (List Char)))) (c : PlotCurves ℝ) : Prop where
  distance : CurveIn pf lines "position" id c.distance
  temperature : CurveIn pf lines "core_temperature" celsius c.temperature
  velocity : CurveIn pf lines "mean_velocity" id c.velocity
  viscosity : CurveIn pf lines "viscosity" id c.viscosity
  yieldStrength : CurveIn pf lines "tho_0" id c.yieldStrength
  width : CurveIn pf lines "channel_width" id c.width
  crystal : CurveIn pf lines "crystal_fraction" id c.crystal
  vesicle : CurveIn pf lines "vesicle_fraction" id c.vesicle
  convection : OptionalIn pf lines "flowgofluxforcedconvectionheat" id c.convection
  conduction : OptionalIn pf lines "flowgofluxconductionheat" id c.conduction
  radiation : OptionalIn pf lines "flowgofluxradiationheat" id c.radiation
  /-- not blank in any line -/
  snyder : CurveIn pf lines "flowgofluxsnyderheat" id c.snyder
  snyderShown : ∀ line ∈ lines, ¬ Blank line "flowgofluxsnyderheat"
  cover : CurveIn pf lines "effective_cover_fraction" id c.cover
  crustTemperature : CurveIn pf lines "crust_temperature" celsius c.crustTemperature
  radiationTemperature : OptionalIn pf lines "effective_radiation_temperature" celsius c.radiationTemperature
  surfaceTemperature : CurveIn pf lines "characteristic_surface_temperature" celsius c.surfaceTemperature
  slope : CurveIn pf lines "slope" inDegrees c.slope
  /-- read, but not drawn -/
  others : ∀ name ∈ ["tho_b", "channel_depth", "effusion_rate", "dphi_dtemp", "dphi_dx"], ∃ ys, CurveIn pf lines name id ys

/-- A row with every number replaced by what is read back of its printed form. -/
def roundRow (rd : ℝ → ℝ) (r : Row (Cell ℝ)) : Row (Cell ℝ) := r.map fun kv => (kv.1, .num (rd (cellNumber kv.2)))

/-- What is drawn for one file, whatever else is drawn: there are at least three lines, the first with an effusion rate, and the
    curves show the others. -/
def Drawn (F : TextFormat ℝ) (disk : List (String × List Char)) (name : String) (c : PlotCurves ℝ) : Prop :=
  ∃ text first rest, lookup disk (F.canon name) = some text ∧ dictRead ',' text = .ok (first :: rest) ∧ 2 ≤ rest.length ∧
    (∃ x, dictFloat F.float first "effusion_rate" = .ok x) ∧ CurvesIn F.float rest c

/-- The samples (distance, slope, altitude) of a profile file. -/
def ProfileSamples (pf : List Char → Option ℝ) (lines : List (List (List Char))) (samples : List (ℝ × ℝ × ℝ)) : Prop :=
  List.Forall₂ (fun fields s => (∃ t, fields[3]? = some t ∧ pf t = some s.1) ∧ (∃ t, fields[4]? = some t ∧ pf t = some s.2.1) ∧
    ∃ t, fields[2]? = some t ∧ pf t = some s.2.2) lines samples

end PyFlowGo.Spec
