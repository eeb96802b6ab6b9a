import Verif.Spec.RunText
import Verif.Spec.SweepSpec
import Verif.Spec.JsonText
import Verif.Model.RunText
/-
  What a sweep over effusion rates is meant to do on the disk.
-/
namespace PyFlowGo.Spec
variable {α : Type} [Add α] [Sub α] [Mul α] [Neg α] [OfScientific α] [PyNum α]

/-- One run of a sweep: the configuration it used, the text of the working copy, and the files it added. -/
structure TextRun (α : Type) where
  config : Json α
  configText : List Char
  files : List (String × List Char)

/-- The run for rate `r`: its working copy is a JSON text for the template with that rate and no other change, and what it
    wrote is what a run on its own writes: on any disk on which the working copy has that value and the profiles are those
    that were on the disk before the sweep. -/
structure StandAlone (grid : List α) (fuel : Nat) (F : TextFormat α) (template : Json α) (working folder : String)
    (disk : List (String × List Char)) (r : Int) (run : TextRun α) : Prop where
  config : WithRate template run.config r
  text : JsonText F.float (universal run.configText) run.config
  same : ∀ other text, lookup other (F.canon working) = some text → JsonText F.float (universal text) run.config →
    (∀ path, MayRead template path →
      (lookup other (F.canon path)).map dataLines = (lookup disk (F.canon path)).map dataLines) →
    runTextOn grid fuel F working folder other = some (.ok (), run.files ++ other)

end PyFlowGo.Spec
