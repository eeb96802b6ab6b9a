import Verif.Spec.Stronger
import Verif.Spec.Sensible
/-
  Words for C121 at the level of sensible set-ups: the models for which the comparison is proved, and the quantity the step is measured against.
-/
namespace PyFlowGo.Spec

/-- The rheology uses none of the laws that read the strain rate (the bll and mader laws for crystals, the mader law for bubbles). -/
def NoStrainRate (l : Lava ℝ) : Prop :=
  (∀ a b c d e f g i, l.rel ≠ .bll a b c d e f g i) ∧ (∀ a, l.rel ≠ .mader a) ∧ (∀ a b c d e, l.bub ≠ .mader a b c d e)

/-- Rain, conduction to a base that is not hotter than the solidus, radiation with one emissivity, radiation with two emissivities of which the crust's
    is not the smaller, and forced convection; all with parameters that take heat. -/
def EverydayFlux (m : Models ℝ) : Flux ℝ → Prop
  | .rain rate rho lv => 0 ≤ rate * rho * lv
  | .conduction base pct => 0 < pct ∧ base ≤ m.cryst.solidTemperature
  | .radBasic sigma e => 0 ≤ sigma * e
  | .radTwoEmi sigma e1 e2 => 0 ≤ sigma ∧ 0 ≤ e2 ∧ e2 ≤ e1
  | .convection => 0 ≤ m.air.convCoef
  | _ => False

/-- How much more heat a flux takes, at most, from a square metre of lava that is a kelvin hotter (W m^-2 K^-1), in a channel of the given depth, for
    molten surfaces up to the temperature `hottest`. -/
noncomputable def wattPerKelvin (m : Models ℝ) (depth hottest : ℝ) : Flux ℝ → ℝ
  | .conduction _ pct => 1.929 ^ 2 / (pct / 100 * depth)
  | .radBasic sigma e => sigma * e * (4 * hottest ^ 3)
  | .radTwoEmi sigma e1 _ => sigma * (e1 * (4 * hottest ^ 3))
  | .convection => m.air.convCoef
  | _ => 0

/-- What C121 asks of the models beyond C117: no strain rates, a constant crystallisation rate `r`, a crust whose temperature depends on the place
    only and lies between air and the coldest molten surface, and the fluxes above. -/
structure Everyday (g : Integrator ℝ) (x0 r : ℝ) : Prop where
  strain : NoStrainRate g.models.lava
  rate : 0 < r ∧ ∀ s, g.models.cryst.rate s = .ok r
  steady : CrustSteady g.models
  air : 0 < g.models.air.temp
  crust : ∀ s Tc, x0 ≤ s.pos → g.models.crust.temperature s = .ok Tc → 1 ≤ Tc ∧ g.models.air.temp ≤ Tc ∧
    g.models.air.temp ≤ Tc ^ slippedExponent ∧ Tc ≤ g.models.cryst.solidTemperature - g.models.lava.buffer
  fluxes : ∀ f ∈ g.models.fluxes, EverydayFlux g.models f

/-- The step is small for the run that left `log`: at every row, `dx` times the heat per square metre and kelvin is at most velocity times depth times
    density times latent heat times crystallisation rate. -/
def StepIsSmall (g : Integrator ℝ) (depth hottest r : ℝ) (log : Log (Cell ℝ)) : Prop :=
  ∀ x v rho, loggedNum log x "mean_velocity" = some v → loggedNum log x "density" = some rho →
    g.dx * (g.models.fluxes.map (wattPerKelvin g.models depth hottest)).sum ≤ v * depth * rho * g.models.lava.latentHeat * r

/-- With mass conservation: the mass rate of the run is the volume rate at its vent times a density that the lava nowhere falls below. -/
def MassFrom (g : Integrator ℝ) (w : World ℝ) (x0 c : ℝ) : Prop :=
  0 < c ∧ (∀ s : FlowState ℝ, x0 ≤ s.pos → c ≤ g.models.lava.density s) ∧
    ∀ v y, g.models.lava.meanVelocity w.terrain w.st = .ok (v, y) → w.fluxRate = some (c * (v * w.terrain.width * w.terrain.depth))

end PyFlowGo.Spec
