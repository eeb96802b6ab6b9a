import Verif.Spec.EulerSpec
/-
  Specification for C119: numbers that are physically possible in a row of the result file.
-/
namespace PyFlowGo.Spec

/-- The row at the distance `x` shows a number in the column `c`, and the number is one of `P`. -/
def ShowsIn (log : Log (Cell ℝ)) (x : ℝ) (c : String) (P : ℝ → Prop) : Prop := ∃ y, loggedNum log x c = some y ∧ P y

/-- The row at the distance `x` is complete: it was written by a step and not cut short (C64). -/
def CompleteRow (log : Log (Cell ℝ)) (x : ℝ) : Prop := ∃ y, loggedNum log x "crystal_fraction" = some y

/-- Every column of the row at `x` shows a physically possible number. `vent` is the state in which the lava left the vent, `depth` the depth
    of the channel. Below the vent the yield strength has not reached the basal stress. -/
structure PlausibleRow (g : Integrator ℝ) (depth : ℝ) (vent : FlowState ℝ) (log : Log (Cell ℝ)) (x : ℝ) : Prop where
  position : ShowsIn log x "position" fun y => y = x ∧ vent.pos ≤ y
  channel_width : ShowsIn log x "channel_width" fun y => 0 < y
  channel_depth : ShowsIn log x "channel_depth" fun y => 0 < y ∧ y = depth
  crystal_fraction : ShowsIn log x "crystal_fraction" fun y => 0 ≤ y ∧ vent.crystal ≤ y ∧ (vent.pos < x → vent.crystal < y)
  core_temperature : ShowsIn log x "core_temperature" fun y =>
    g.models.cryst.solidTemperature < y ∧ y ≤ vent.temp ∧ (vent.pos < x → y < vent.temp)
  strain_rate : ShowsIn log x "strain_rate" fun y => 0 < y
  vesicle_fraction : ShowsIn log x "vesicle_fraction" fun y => 0 ≤ y ∧ y < 1
  viscosity : ShowsIn log x "viscosity" fun y => 0 < y
  density : ShowsIn log x "density" fun y => 0 < y ∧ y ≤ g.models.lava.densityDre
  mean_velocity : ShowsIn log x "mean_velocity" fun y => 0 < y
  crust_temperature : ShowsIn log x "crust_temperature" fun y => 0 < y ∧ g.models.air.temp ≤ y
  effective_cover_fraction : ShowsIn log x "effective_cover_fraction" fun y => 0 ≤ y ∧ y ≤ 1
  dphi_dx : ShowsIn log x "dphi_dx" fun y => 0 < y
  dtemp_dx : ShowsIn log x "dtemp_dx" fun y => y < 0
  dphi_dtemp : ShowsIn log x "dphi_dtemp" fun y => 0 < y
  dtemp_dt : ShowsIn log x "dtemp_dt" fun y => 0 < y
  heat_budget : ShowsIn log x "heat_budget" fun y => 0 < y
  slope : ShowsIn log x "slope" fun y => Real.sin y ≠ 0
  effusion_rate : ∃ y, cellAt log (.num x) "effusion_rate" = some (.text y) ∧ 0 < y
  stresses : ShowsIn log x "tho_0" fun y => ShowsIn log x "tho_b" fun z => 0 ≤ y ∧ z ≠ 0 ∧ (vent.pos < x → y < z)

end PyFlowGo.Spec
