import Verif.Spec.Converge
/-
  Two set-ups whose flow equations are close.
-/
namespace PyFlowGo.Spec

/-- A set-up as far as its flow equations go: models, terrain, mass flux fixed at the vent and effusion rate. -/
structure Setup where
  g : Integrator ℝ
  terrain : Terrain ℝ
  fluxRate : Option ℝ
  rate : ℝ

/-- In the region `R` the right-hand sides of the two set-ups, taken at the same position, differ by at most `K` times the difference of
    temperature and crystal fraction, plus `delta`. For one set-up and `delta = 0` this is a Lipschitz condition. -/
def CloseEquations (a b : Setup) (R : ℝ → ℝ → ℝ → Prop) (K delta : ℝ) : Prop :=
  ∀ s s' G G', R s.pos s.temp s.crystal → R s'.pos s'.temp s'.crystal → s.pos = s'.pos →
    FlowEquations a.g a.terrain a.fluxRate a.rate s G → FlowEquations b.g b.terrain b.fluxRate b.rate s' G' →
    G.within G' (K * max |s.temp - s'.temp| |s.crystal - s'.crystal| + delta)

/-- What the complete rows of a table show lies in `R`. -/
def ShownIn (log : Log (Cell ℝ)) (R : ℝ → ℝ → ℝ → Prop) : Prop :=
  ∀ x T phi, loggedNum log x "core_temperature" = some T → loggedNum log x "crystal_fraction" = some phi → R x T phi

end PyFlowGo.Spec
