import Verif.Spec.RunSpec
import Verif.Spec.HeatSpec
/-
  The meaning of the columns of a result file, and of the step from one row to the next.
-/
namespace PyFlowGo.Spec

/-- The numbers from which one row of the result is made. -/
structure RowData where
  /-- mean velocity at the state of the row -/
  v : ℝ
  /-- strain rate in the state object when the row is written -/
  strain : ℝ
  /-- mean velocity computed once more for the crust cover -/
  vCover : ℝ
  /-- heat lost per metre of channel -/
  heat : ℝ
  width : ℝ
  slope : ℝ
  viscosity : ℝ
  crustT : ℝ
  yieldStrength : ℝ
  basalStress : ℝ
  /-- crystallisation rate -/
  rate : ℝ

/-- `fluxRate` is the mass flux fixed at the vent (mass conservation), `E` the effusion rate. -/
structure RowMade (g : Integrator ℝ) (T : Terrain ℝ) (fluxRate : Option ℝ) (E : ℝ) (s : FlowState ℝ) (d : RowData) : Prop where
  velocity : ∃ x, g.models.lava.meanVelocity T s = .ok (d.v, x)
  moving : 0 < d.v
  depth : T.depth ≠ 0
  cover : ∃ x, g.models.lava.meanVelocity T { s with strain := d.strain } = .ok (d.vCover, x)
  volume : g.massConservation = false → d.width = E / (d.v * T.depth)
  mass : g.massConservation = true → ∃ flux, fluxRate = some flux ∧ d.width = flux / (d.v * T.depth) / g.models.lava.density s
  slope : T.slope s.pos = .ok d.slope
  viscosity : g.models.lava.bulkViscosity { s with strain := d.strain } = .ok d.viscosity
  crust : g.models.crust.temperature s = .ok d.crustT
  yieldStrength : g.models.lava.yieldStrength s = .ok d.yieldStrength
  basalStress : g.models.lava.basalStress T s = .ok d.basalStress
  rate : g.models.cryst.rate s = .ok d.rate
  denominator : E * g.models.lava.density s * g.models.lava.latentHeat * d.rate ≠ 0

/-- Temperature gradient along the channel. -/
noncomputable def tempGradient (g : Integrator ℝ) (E : ℝ) (s : FlowState ℝ) (d : RowData) : ℝ :=
  -d.heat / (E * g.models.lava.density s * g.models.lava.latentHeat * d.rate)

/-- Gradient of the crystal fraction along the channel. -/
noncomputable def crystalGradient (g : Integrator ℝ) (E : ℝ) (s : FlowState ℝ) (d : RowData) : ℝ :=
  d.heat / (E * g.models.lava.density s * g.models.lava.latentHeat)

/-- What the 21 columns written by the integrator show in the row of the position of `s`. -/
structure RowShown (g : Integrator ℝ) (T : Terrain ℝ) (E : ℝ) (log : Log (Cell ℝ)) (s : FlowState ℝ) (d : RowData) : Prop where
  position : loggedNum log s.pos "position" = some s.pos
  channel_width : loggedNum log s.pos "channel_width" = some d.width
  crystal_fraction : loggedNum log s.pos "crystal_fraction" = some s.crystal
  core_temperature : loggedNum log s.pos "core_temperature" = some s.temp
  strain_rate : loggedNum log s.pos "strain_rate" = some d.strain
  vesicle_fraction : loggedNum log s.pos "vesicle_fraction" = some (g.models.lava.vesicleFraction s)
  viscosity : loggedNum log s.pos "viscosity" = some d.viscosity
  density : loggedNum log s.pos "density" = some (g.models.lava.density s)
  mean_velocity : loggedNum log s.pos "mean_velocity" = some d.v
  crust_temperature : loggedNum log s.pos "crust_temperature" = some d.crustT
  effective_cover_fraction : loggedNum log s.pos "effective_cover_fraction" = some (coverLaw g.models.cover s.pos d.vCover)
  dphi_dx : loggedNum log s.pos "dphi_dx" = some (crystalGradient g E s d)
  dtemp_dx : loggedNum log s.pos "dtemp_dx" = some (tempGradient g E s d)
  dphi_dtemp : loggedNum log s.pos "dphi_dtemp" = some d.rate
  /-- kelvin per minute, counted positive for cooling -/
  dtemp_dt : loggedNum log s.pos "dtemp_dt" = some (-tempGradient g E s d * d.v * 60)
  slope : loggedNum log s.pos "slope" = some d.slope
  effusion_rate : cellAt log (.num s.pos) "effusion_rate" = some (.text E)
  channel_depth : loggedNum log s.pos "channel_depth" = some T.depth
  tho_0 : loggedNum log s.pos "tho_0" = some d.yieldStrength
  tho_b : loggedNum log s.pos "tho_b" = some d.basalStress
  heat_budget : loggedNum log s.pos "heat_budget" = some d.heat

/-- One explicit Euler step of length `dx` along the channel. -/
structure EulerStep (g : Integrator ℝ) (T : Terrain ℝ) (E : ℝ) (s s' : FlowState ℝ) (d : RowData) : Prop where
  crystal : s'.crystal = s.crystal + crystalGradient g E s d * g.dx
  temp : s'.temp = s.temp + tempGradient g E s d * g.dx
  pos : s'.pos = s.pos + g.dx
  time : s'.time = s.time + g.dx / d.v
  strain : s'.strain = 3 * d.v / T.depth

end PyFlowGo.Spec
