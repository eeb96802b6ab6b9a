import Verif.Model.World
import Verif.Model.RealNum
/-
  The heat-loss laws the flux classes claim to implement, on real numbers, written without reference to
  the flux code of the model.
-/
namespace PyFlowGo.Spec
open Classical

/-- Effective crust cover: the configured cover decays (or grows) exponentially with the velocity. -/
noncomputable def coverLaw : CoverModel ℝ → ℝ → ℝ → ℝ
  | .basic a fc, _, v => fc * Real.exp (a * v)
  | .bimodal d a1 a2 f1 f2, pos, v => if pos ≤ d then f1 * Real.exp (a1 * v) else f2 * Real.exp (a2 * v)

/-- Area-weighted radiative exchange: a fraction `f` of the surface is crust at `Tc`, the rest molten at
    `Tm`, against air at `Ta` (all in kelvin, fourth powers). -/
noncomputable def radiantExchange (f Tc Tm Ta : ℝ) : ℝ :=
  f * (Tc ^ 4 - Ta ^ 4) + (1 - f) * (Tm ^ 4 - Ta ^ 4)

/-- Mixture of a crust value and a molten value. -/
noncomputable def mix (f crust molten : ℝ) : ℝ := f * crust + (1 - f) * molten

/-- Quadratic emissivity law. -/
noncomputable def quadraticEmissivity (T : ℝ) : ℝ := 0.474709 + 0.000719320 * T - 0.000000340085 * T ^ 2

/-- Linear emissivity law. -/
noncomputable def linearEmissivity (T : ℝ) : ℝ := 1.0463014 - 0.000148144 * T

/-- The Stefan-Boltzmann constant and the emissivity used by a radiative flux. -/
noncomputable def emissivityOf (f Tc Tm Ta : ℝ) : Flux ℝ → Option (ℝ × ℝ)
  | .radBasic σ e => some (σ, e)
  | .radTwoEmi σ e1 e2 => some (σ, mix f e1 e2)
  | .radCont σ => some (σ, mix f (quadraticEmissivity Tc) (quadraticEmissivity Tm))
  | .radLin σ => some (σ, linearEmissivity (radiantExchange f Tc Tm Ta ^ (1 / 4 : ℝ)))
  | _ => none

/-- The exponent that the two published-but-inconsistent exponents 1.333 and 0.75 compose to. -/
noncomputable def slippedExponent : ℝ := 1.333 * 0.75

/-- Convective surface temperature. -/
noncomputable def convectiveTemperature (f Tc Tm : ℝ) : ℝ := (mix f (Tc ^ (1.333 : ℝ)) (Tm ^ (1.333 : ℝ))) ^ (0.75 : ℝ)

/-- The temperature of the molten part of the surface: the core temperature less the configured buffer. -/
noncomputable def coreTemperature (l : Lava ℝ) (s : FlowState ℝ) : ℝ := s.temp - l.buffer

/-- What one flux is, for a lava whose viscosity does not depend on the strain rate: a relation between
    the models, the channel, the terrain, the state and the heat flux per unit length.  It does not
    mention the log nor the strain rate. -/
def FluxIs (m : Models ℝ) (width depth : ℝ) (t : Terrain ℝ) (s : FlowState ℝ) : Flux ℝ → ℝ → Prop
  | .conduction baseT pct, q => pct * depth ≠ 0 ∧
      q = (1.929 - 1.554 * m.lava.vesicleFraction s) ^ 2 * ((s.temp - baseT) / (pct / 100 * depth)) * width
  | .rain rate rho lv, q => q = rate * rho * lv * width
  | .viscous, q => ∃ visc v x, m.lava.bulkViscosity s = .ok visc ∧ m.lava.meanVelocity t s = .ok (v, x) ∧
      depth ≠ 0 ∧ q = visc * (v / depth) ^ 2 * width
  | .convection, q => ∃ v x Tc, m.lava.meanVelocity t s = .ok (v, x) ∧ m.crust.temperature s = .ok Tc ∧
      0 ≤ Tc ∧ 0 ≤ (coreTemperature m.lava s) ∧
      0 ≤ mix (coverLaw m.cover s.pos v) (Tc ^ (1.333 : ℝ)) ((coreTemperature m.lava s) ^ (1.333 : ℝ)) ∧
      q = m.air.convCoef *
        (convectiveTemperature (coverLaw m.cover s.pos v) Tc (coreTemperature m.lava s) - m.air.temp) * width
  | .snyder, q => ∃ v x Tc, m.lava.meanVelocity t s = .ok (v, x) ∧ m.crust.temperature s = .ok Tc ∧
      0 ≤ mix (coverLaw m.cover s.pos v) Tc (coreTemperature m.lava s) ∧
      q = 1.07e-10 * mix (coverLaw m.cover s.pos v) Tc (coreTemperature m.lava s) ^ (4.85 : ℝ) * width
  | fl, q => ∃ v x Tc σ e, m.lava.meanVelocity t s = .ok (v, x) ∧ m.crust.temperature s = .ok Tc ∧
      Tc ≠ 0 ∧ (coreTemperature m.lava s) ≠ 0 ∧
      0 ≤ radiantExchange (coverLaw m.cover s.pos v) Tc (coreTemperature m.lava s) m.air.temp ∧
      emissivityOf (coverLaw m.cover s.pos v) Tc (coreTemperature m.lava s) m.air.temp fl = some (σ, e) ∧
      q = σ * e * radiantExchange (coverLaw m.cover s.pos v) Tc (coreTemperature m.lava s) m.air.temp * width

end PyFlowGo.Spec

namespace PyFlowGo.Spec

/-- The log columns of other fluxes that computing this flux overwrites with zero: the convection class
    zeroes the Snyder column, the Snyder class zeroes the convection and radiation columns. -/
def zeroedBy {α : Type} : Flux α → List String
  | .convection => ["flowgofluxsnyderheat"]
  | .snyder => ["flowgofluxforcedconvectionheat", "flowgofluxradiationheat"]
  | _ => []

/-- The log column of a flux: the lower-cased class name; the four radiation classes share theirs. -/
def fluxColumn {α : Type} : Flux α → String
  | .radBasic _ _ => "flowgofluxradiationheat"
  | .radTwoEmi _ _ _ => "flowgofluxradiationheat"
  | .radCont _ => "flowgofluxradiationheat"
  | .radLin _ => "flowgofluxradiationheat"
  | .conduction _ _ => "flowgofluxconductionheat"
  | .convection => "flowgofluxforcedconvectionheat"
  | .rain _ _ _ => "flowgofluxheatlossrain"
  | .viscous => "flowgofluxviscousheating"
  | .snyder => "flowgofluxsnyderheat"

/-- No flux of the list overwrites the log column of an earlier one. -/
def ColumnsKept {α : Type} (fs : List (Flux α)) : Prop :=
  fs.Pairwise fun f g => fluxColumn f ≠ fluxColumn g ∧ fluxColumn f ∉ zeroedBy g

end PyFlowGo.Spec
