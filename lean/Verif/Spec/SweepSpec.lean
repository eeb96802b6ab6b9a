import Verif.Spec.ConfigSpec
import Verif.Model.Run
/-
  What a sweep is meant to do: one independent fresh run per rate, on the template with that rate.
-/
namespace PyFlowGo.Spec
variable {α : Type}

/-- `data` is the template with `effusion_rate_init` set to the integer `r`, all other entries unchanged. -/
def WithRate (template data : Json α) (r : Int) : Prop :=
  TopEntry data "effusion_rate_init" (.int r) ∧
  ∀ k, k ≠ "effusion_rate_init" → ∀ x, TopEntry data k x ↔ TopEntry template k x

/-- One run of a sweep: its configuration, its log and the files it wrote. -/
structure SweepRun (α : Type) where
  config : Json α
  log : Log (Cell α)
  files : List (String × CsvTable (Cell α))

/-- Result files of different rates in the folder are different files (two names are the same file only if they are links to
    each other). -/
def DistinctFiles (env : Env α) (folder lava : String) : Prop :=
  ∀ a b : Int, env.canon (resultFileName folder lava (toString a)) = env.canon (resultFileName folder lava (toString b)) → a = b

end PyFlowGo.Spec
