import Verif.Spec.RunSpec
import Verif.Model.RealNum
/-
  The columns of a result file that describe the state of the flow at one position.
-/
namespace PyFlowGo.Spec

/-- Numbers read in one row of a result file. -/
structure ProfileRow where
  crystal : ℝ
  temp : ℝ
  velocity : ℝ
  width : ℝ
  depth : ℝ
  density : ℝ
  heat : ℝ
  rate : ℝ
  crystalGradient : ℝ
  tempGradient : ℝ
  yieldStrength : ℝ
  basalStress : ℝ
  effusionRate : ℝ
  slope : ℝ

/-- The file shows these numbers in the row of position `p`. -/
structure Shows (log : Log (Cell ℝ)) (p : ℝ) (r : ProfileRow) : Prop where
  crystal : loggedNum log p "crystal_fraction" = some r.crystal
  temp : loggedNum log p "core_temperature" = some r.temp
  velocity : loggedNum log p "mean_velocity" = some r.velocity
  width : loggedNum log p "channel_width" = some r.width
  depth : loggedNum log p "channel_depth" = some r.depth
  density : loggedNum log p "density" = some r.density
  heat : loggedNum log p "heat_budget" = some r.heat
  rate : loggedNum log p "dphi_dtemp" = some r.rate
  crystalGradient : loggedNum log p "dphi_dx" = some r.crystalGradient
  tempGradient : loggedNum log p "dtemp_dx" = some r.tempGradient
  yieldStrength : loggedNum log p "tho_0" = some r.yieldStrength
  basalStress : loggedNum log p "tho_b" = some r.basalStress
  /-- this column is written as text -/
  effusionRate : cellAt log (.num p) "effusion_rate" = some (.text r.effusionRate)
  slope : loggedNum log p "slope" = some r.slope

/-- The laws two consecutive rows obey; `L` latent heat, `dx` step. -/
structure RowLaws (L dx : ℝ) (a b : ProfileRow) : Prop where
  crystals_increase : a.crystal < b.crystal
  crystal_slope : b.crystal = a.crystal + a.crystalGradient * dx
  temp_slope : b.temp = a.temp + a.tempGradient * dx
  crystallisation : b.crystal - a.crystal = -a.rate * (b.temp - a.temp)
  energy : a.effusionRate * a.density * L * (b.crystal - a.crystal) = a.heat * dx
  same_depth : b.depth = a.depth
  same_rate : b.effusionRate = a.effusionRate

end PyFlowGo.Spec
