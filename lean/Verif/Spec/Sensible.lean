import Verif.Spec.Rheology
import Verif.Spec.Laws
import Verif.Model.Integrator
import Verif.Model.RealNum
/-
  Specification for C117: physically sensible parameters, and the states in which a flow starts.
-/
namespace PyFlowGo.Spec

/-- The vesicle fraction is a fraction, below 1, from `x0` downstream. -/
def VesiclesWithin (x0 : ℝ) (ves : VesicleModel ℝ) : Prop := ∀ s : FlowState ℝ, x0 ≤ s.pos → 0 ≤ ves.fraction s ∧ ves.fraction s < 1

/-- Positive parameters, and a law that is defined above the solidus. -/
def MeltAbove (solidus : ℝ) (m : MeltModel ℝ) : Prop := MeltValid m ∧ ∀ T, solidus < T → MeltDomain m T

/-- Parameters of the relative-viscosity laws with a physical meaning. The mader law is not among them (its own check does not protect
    it, C30), nor the Costa laws with a strain rate they have no fit for. -/
def RelSensible (x0 solidus : ℝ) : RelModel ℝ → Prop
  | .er => True
  | .kd φm b => 0 < φm ∧ 0 < b
  | .mp φm => 0 < φm
  | .mpMueller rp => 0 < rp
  | .mader _ => False
  | .bll φm bs _ _ tension _ ves melt => 0 < φm ∧ 0 < bs ∧ tension ≠ 0 ∧ VesiclesWithin x0 ves ∧ MeltAbove solidus melt
  | .ptp1 ves => VesiclesWithin x0 ves
  | .ptp2 ves => VesiclesWithin x0 ves ∧ ∀ s : FlowState ℝ, x0 ≤ s.pos → 0 < ves.fraction s
  | .ptp3 ves => VesiclesWithin x0 ves
  | .costa1 p => p = 1 ∨ p = 0.0001
  | .costa2 p => p = 1 ∨ p = 0.0001

/-- Parameters of the bubble laws. -/
def BubSensible (x0 solidus : ℝ) (rel : RelModel ℝ) : BubModel ℝ → Prop
  | .no => True
  | .rigid ves => VesiclesWithin x0 ves
  | .defo ves => VesiclesWithin x0 ves
  | .mader _ tension ves melt rel' => tension ≠ 0 ∧ VesiclesWithin x0 ves ∧ MeltAbove solidus melt ∧ rel' = rel

/-- A crust cover that is a fraction and shrinks with the velocity. -/
def CoverSensible : CoverModel ℝ → Prop
  | .basic a f => a ≤ 0 ∧ 0 ≤ f ∧ f ≤ 1
  | .bimodal _ a1 a2 f1 f2 => a1 ≤ 0 ∧ a2 ≤ 0 ∧ 0 ≤ f1 ∧ f1 ≤ 1 ∧ 0 ≤ f2 ∧ f2 ≤ 1

/-- The lava is packed exactly to the limit at which its law divides by zero. The Einstein-Roscoe and the Costa laws have no such point
    among the states the program accepts. -/
noncomputable def AtPacking (s : FlowState ℝ) : RelModel ℝ → Prop
  | .er => False
  | .costa1 _ => False
  | .costa2 _ => False
  | .mader rp => s.crystal = muellerPacking rp
  | .bll φm _ _ _ _ _ _ _ => s.crystal = φm
  | m => s.crystal = packingLimit s m

/-- A physically sensible set-up for a flow that starts at `x0`. -/
structure Sensible (g : Integrator ℝ) (t : Terrain ℝ) (x0 : ℝ) : Prop where
  step : 0 < g.dx
  gravity : t.gravity ≠ 0
  width : 0 < t.width
  slopes : ∀ x, ∃ y, t.slope x = .ok y
  density : 0 < g.models.lava.densityDre
  latent : 0 < g.models.lava.latentHeat
  vesicles : VesiclesWithin x0 g.models.lava.ves
  melt : MeltAbove g.models.cryst.solidTemperature g.models.lava.melt
  crystals : RelSensible x0 g.models.cryst.solidTemperature g.models.lava.rel
  bubbles : BubSensible x0 g.models.cryst.solidTemperature g.models.lava.rel g.models.lava.bub
  rate : ∀ s : FlowState ℝ, x0 ≤ s.pos → g.models.cryst.solidTemperature < s.temp → ∃ r, 0 < r ∧ g.models.cryst.rate s = .ok r
  cover : CoverSensible g.models.cover
  crust : ∀ s : FlowState ℝ, x0 ≤ s.pos → g.models.cryst.solidTemperature < s.temp →
    ∃ tc, 0 < tc ∧ g.models.air.temp ≤ tc ∧ g.models.crust.temperature s = .ok tc
  air : 0 ≤ g.models.air.temp
  molten : 0 < g.models.cryst.solidTemperature - g.models.lava.buffer ∧
    g.models.air.temp ≤ g.models.cryst.solidTemperature - g.models.lava.buffer
  conduction : ∀ base p, Flux.conduction base p ∈ g.models.fluxes → p ≠ 0

/-- Lava that can flow at `x0`: above the solidus, not packed with crystals, on ground that is not level. -/
structure AtVent (g : Integrator ℝ) (w : World ℝ) : Prop where
  crystals : 0 ≤ w.st.crystal
  hot : g.models.cryst.solidTemperature < w.st.temp
  room : g.models.lava.notCompatible w.st = .ok false
  off : ¬ AtPacking w.st g.models.lava.rel
  depth : 0 < w.terrain.depth
  ground : ∀ y, w.terrain.slope w.st.pos = .ok y → Real.sin y ≠ 0

end PyFlowGo.Spec
