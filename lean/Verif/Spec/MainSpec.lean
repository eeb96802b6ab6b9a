import Verif.Spec.RunConfigSpec
import Verif.Model.MainScript
/-
  How the two entry points read `mass_conservation`.
-/
namespace PyFlowGo.Spec
variable {α : Type}

/-- Values of `mass_conservation` that `RunFlowgo` takes as on and the script `main_flowgo.py` as off: a text that says
    "true", a number other than 0 and 1, a non-empty list or object. -/
def OnlyRunnerOn [OfScientific α] (v : Json α) : Prop :=
  match v with
  | .null => False
  | .bool _ => False
  | .int n => n ≠ 0 ∧ n ≠ 1
  | .num x => x ≠ 0.0 ∧ x ≠ 1.0
  | .str s => SaysTrue s
  | .arr l => l ≠ []
  | .obj l => l ≠ []

/-- `mass_conservation` means the same to both: the section is there and the entry is missing or is none of the values
    above. -/
def MassAgrees [OfScientific α] (data : Json α) : Prop :=
  ∃ inner, TopEntry data "terrain_conditions" (.obj inner) ∧
    ∀ v, lookup inner "mass_conservation" = some v → ¬ OnlyRunnerOn v

/-- A file name inside a folder: a slash in between unless the folder is empty or ends with one. -/
def inFolder (folder name : String) : String :=
  (if folder = "" ∨ folder.toList.getLast? = some '/' then folder else folder ++ "/") ++ name

/-- Two processes, `RunFlowgo` (`a`) and the script (`b`), after a run of the configuration `data`: same log, same
    configuration files, and either none wrote a table or both wrote the same table, the first to
    `<folder>/results_flowgo_<lava_name>_<effusion_rate_init>m3s.csv`, the second to
    `./results_flowgo/results_main_flowgo_<lava_name>_<effusion_rate_init>m3s.csv`. -/
def SameResult (env : Env α) (data : Json α) (folder : String) (before a b : Proc α) : Prop :=
  a.log = b.log ∧ a.json = before.json ∧ b.json = before.json ∧
  ((a.results = before.results ∧ b.results = before.results) ∨
    ∃ t lava rate, TopEntry data "lava_name" lava ∧ TopEntry data "effusion_rate_init" rate ∧
      a.results = (env.canon (inFolder folder
        ("results_flowgo_" ++ lava.show env ++ "_" ++ rate.show env ++ "m3s.csv")), t) :: before.results ∧
      b.results = (env.canon
        ("./results_flowgo/results_main_flowgo_" ++ lava.show env ++ "_" ++ rate.show env ++ "m3s.csv"), t) :: before.results)

end PyFlowGo.Spec
