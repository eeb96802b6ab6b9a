import Verif.Spec.ProfileSpec
import Verif.Model.CsvText
import Verif.Spec.ConfigSpec
/-
  What someone who opens the result file finds in a line.
-/
namespace PyFlowGo.Spec

/-- The line, read with `csv.DictReader` and `float`, shows these numbers, rounded the way numbers are printed. -/
structure LineShows (pf : List Char → Option ℝ) (rd : ℝ → ℝ) (line : List (List Char × Option (List Char))) (p : ℝ)
    (r : ProfileRow) : Prop where
  position : dictFloat pf line "position" = .ok (rd p)
  crystal : dictFloat pf line "crystal_fraction" = .ok (rd r.crystal)
  temp : dictFloat pf line "core_temperature" = .ok (rd r.temp)
  velocity : dictFloat pf line "mean_velocity" = .ok (rd r.velocity)
  width : dictFloat pf line "channel_width" = .ok (rd r.width)
  depth : dictFloat pf line "channel_depth" = .ok (rd r.depth)
  density : dictFloat pf line "density" = .ok (rd r.density)
  heat : dictFloat pf line "heat_budget" = .ok (rd r.heat)
  rate : dictFloat pf line "dphi_dtemp" = .ok (rd r.rate)
  crystalGradient : dictFloat pf line "dphi_dx" = .ok (rd r.crystalGradient)
  tempGradient : dictFloat pf line "dtemp_dx" = .ok (rd r.tempGradient)
  yieldStrength : dictFloat pf line "tho_0" = .ok (rd r.yieldStrength)
  basalStress : dictFloat pf line "tho_b" = .ok (rd r.basalStress)
  effusionRate : dictFloat pf line "effusion_rate" = .ok (rd r.effusionRate)
  slope : dictFloat pf line "slope" = .ok (rd r.slope)

/-- The line has no such column, or an empty cell in it. -/
def Blank (line : List (List Char × Option (List Char))) (name : String) : Prop :=
  dictField line name = .error .keyError ∨ dictField line name = .ok (some [])

/-- The files a run with this configuration may read besides the configuration itself: the slope profile it names (a fixed one
    for `null`) and the crust-temperature profile. -/
def MayRead {α : Type} (data : Json α) (path : String) : Prop :=
  TopEntry data "slope_file" (.str path) ∨ (TopEntry data "slope_file" .null ∧ path = "../MaunaUlu74/DEM_maunaulu74.txt") ∨
    path = "resources/crust_temperature_profile.txt"

end PyFlowGo.Spec
