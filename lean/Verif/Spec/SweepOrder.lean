import Verif.Spec.Everyday
import Verif.Spec.RunSpec
import Verif.Model.Run
/-
  What a run of a sweep must have shown for the run-outs to be compared.
-/
namespace PyFlowGo.Spec

/-- The run that left `log`, prepared as `pr`, flowed: it shows a depth `D` at the vent; at that depth the yield strength is below the basal stress; its step was small (with the
    crystallisation rate `k`); and it lost heat at every row. -/
def Flowed (pr : Prepared ℝ) (k : ℝ) (log : Log (Cell ℝ)) : Prop :=
  ∃ D, loggedNum log pr.world.st.pos "channel_depth" = some D ∧
    pr.integrator.models.lava.yieldNotCompatible { pr.world.terrain with depth := D } pr.world.st = .ok false ∧
    StepIsSmall pr.integrator D (pr.world.st.temp - pr.integrator.models.lava.buffer) k log ∧
    ∀ x y, loggedNum log x "heat_budget" = some y → 0 < y

end PyFlowGo.Spec
