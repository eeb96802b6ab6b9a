import Verif.Model.Integrator
/-
  What a step computes besides the temperature gradient.
-/
namespace PyFlowGo.Spec
variable {α : Type} [Add α] [Sub α] [Mul α] [Neg α] [OfScientific α] [PyNum α]

/-- The effusion rate a step uses: on the first iteration velocity * width * depth, later the stored one. -/
def usedRate (w : World α) (v : α) : α :=
  if w.iteration == 0 then v * w.terrain.width * w.terrain.depth else w.effusionRate

/-- In the step at `w` everything but the temperature gradient is computed without an exception: the velocity `v`, the
    width, the slope, the heat budget `heat` (after which the program is at `w1`), the values that are logged, and the
    updates of time and strain rate. -/
structure AllButGradient (g : Integrator α) (w : World α) (v heat : α) (w1 : World α) : Prop where
  budget : ∃ x width slope, g.models.lava.meanVelocity w.terrain w.st = .ok (v, x) ∧
    channelWidth g.massConservation (usedRate w v) w.fluxRate v w.terrain.depth (g.models.lava.density w.st) = .ok width ∧
    w.terrain.slope w.st.pos = .ok slope ∧
    heatBudget g.models width w.terrain.depth { w with st := { w.st with strain := x }, effusionRate := usedRate w v } = (.ok heat, w1)
  viscosity : ∃ x, g.models.lava.bulkViscosity w1.st = .ok x
  crust : ∃ x, g.models.crust.temperature w1.st = .ok x
  velocity : ∃ x, g.models.lava.meanVelocity w1.terrain w1.st = .ok x
  yield : ∃ x, g.models.lava.yieldStrength w1.st = .ok x
  basal : ∃ x, g.models.lava.basalStress w1.terrain w1.st = .ok x
  time : ∃ x, PyNum.div g.dx v = .ok x
  strain : ∃ x, PyNum.div (3.0 * v) w.terrain.depth = .ok x

end PyFlowGo.Spec
