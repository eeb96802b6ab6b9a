import Verif.Spec.Schedule
/-
  Specification of C111: a configuration file that is saved while a run or a sweep reads it.
-/
namespace PyFlowGo.Spec
variable {α : Type} [OfScientific α] [PyNum α]

/-- The files a run with this configuration reads besides it, and the one it writes, are not the configuration file itself. -/
def ConfigApart (F : TextFormat α) (jsonFile folder : String) (data : Json α) : Prop :=
  (∀ path, MayRead data path → F.canon path ≠ F.canon jsonFile) ∧
  ∀ rate lava, TopEntry data "effusion_rate_init" rate → TopEntry data "lava_name" lava →
    F.canon (resultFileName folder (lava.show (textEnv F [])) (rate.show (textEnv F []))) ≠ F.canon jsonFile

/-- The same for a sweep: profiles, working copy and results. -/
def SweepApart (F : TextFormat α) (jsonFile folder : String) (template : Json α) : Prop :=
  (∀ path, MayRead template path → F.canon path ≠ F.canon jsonFile) ∧ F.canon (workingFile jsonFile folder) ≠ F.canon jsonFile ∧
  ∀ (r : Int) lava, TopEntry template "lava_name" lava → F.canon (resultFileName folder (lava.show (textEnv F [])) (toString r)) ≠ F.canon jsonFile

/-- The same files with the same contents, apart from one. -/
def SameBut (c : String) (d d' : Files) : Prop := ∀ q, q ≠ c → lookup d q = lookup d' q

end PyFlowGo.Spec
