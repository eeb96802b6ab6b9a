import Verif.Spec.MainSpec
import Verif.Spec.RunText
/-
  What `main_flowgo.py` and `RunFlowgo().run` leave on the disk.
-/
namespace PyFlowGo.Spec
variable {α : Type}

/-- The disks `a` (after `RunFlowgo().run`) and `b` (after the script), both started from `disk` with the configuration `data`:
    either neither wrote anything, or both added one file with the same text, under the names
    `<folder>/results_flowgo_<lava_name>_<effusion_rate_init>m3s.csv` and
    `./results_flowgo/results_main_flowgo_<lava_name>_<effusion_rate_init>m3s.csv`. -/
def SameResultText (env : Env α) (data : Json α) (folder : String) (disk a b : List (String × List Char)) : Prop :=
  (a = disk ∧ b = disk) ∨
  ∃ out lava rate, TopEntry data "lava_name" lava ∧ TopEntry data "effusion_rate_init" rate ∧
    a = (env.canon (inFolder folder ("results_flowgo_" ++ lava.show env ++ "_" ++ rate.show env ++ "m3s.csv")), out) :: disk ∧
    b = (env.canon ("./results_flowgo/results_main_flowgo_" ++ lava.show env ++ "_" ++ rate.show env ++ "m3s.csv"), out) :: disk

end PyFlowGo.Spec
