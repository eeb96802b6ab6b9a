import Verif.Spec.SweepText
import Verif.Spec.PlotText
import Verif.Spec.RunOutsDisk
import Verif.Model.SweepFullText
/-
  What a complete sweep over effusion rates leaves behind.
-/
namespace PyFlowGo.Spec

/-- The table of run-outs. -/
def runOutsPath (folder lava : String) : String := pathJoin folder ("run_outs_" ++ lava ++ ".csv")

/-- The files of a sweep do not get in each other's way. (`lava` is the text of the template's `lava_name`. The template may
    lie in the output folder, where the working copy replaces it.) -/
structure Apart (F : TextFormat ℝ) (template : Json ℝ) (lava jsonFile folder slopeFile : String) : Prop where
  /-- what the runs and the post-processing read is not written over -/
  inputs : ∀ path, MayRead template path ∨ path = slopeFile → F.canon path ≠ F.canon (workingFile jsonFile folder) ∧
    ∀ r : Int, F.canon path ≠ F.canon (resultFileName folder lava (toString r))
  results : ∀ a b : Int, F.canon (resultFileName folder lava (toString a)) = F.canon (resultFileName folder lava (toString b)) → a = b
  working : ∀ r : Int, F.canon (resultFileName folder lava (toString r)) ≠ F.canon (workingFile jsonFile folder)
  template : ∀ r : Int, F.canon jsonFile ≠ F.canon (resultFileName folder lava (toString r))
  table : F.canon slopeFile ≠ F.canon (runOutsPath folder lava) ∧
    ∀ r : Int, F.canon (resultFileName folder lava (toString r)) ≠ F.canon (runOutsPath folder lava)

/-- All there is about one rate of a sweep: the run, the text of the result, label, curves, and line of the run-out table. -/
structure RateResult where
  rate : Int
  run : TextRun ℝ
  text : List Char
  label : List Char
  curves : PlotCurves ℝ
  line : RunOut ℝ

/-- One rate of a complete sweep from `disk` to `disk'`. -/
structure RateDone (grid : List ℝ) (fuel : Nat) (round : Nat → ℝ → ℝ) (F : TextFormat ℝ) (template : Json ℝ)
    (lava jsonFile folder slopeFile : String) (disk disk' : List (String × List Char)) (x : RateResult) : Prop where
  run : StandAlone grid fuel F template (workingFile jsonFile folder) folder disk x.rate x.run
  /-- the result is the one written by the run; a run that writes none leaves a result that was there before -/
  text : x.run.files = [(F.canon (resultFileName folder lava (toString x.rate)), x.text)] ∨
    x.run.files = [] ∧ lookup disk (F.canon (resultFileName folder lava (toString x.rate))) = some x.text
  kept : lookup disk' (F.canon (resultFileName folder lava (toString x.rate))) = some x.text
  label : x.label = plotLabel folder (resultFileName folder lava (toString x.rate))
  curves : ∃ first rest, dictRead ',' x.text = .ok (first :: rest) ∧ 2 ≤ rest.length ∧
    (∃ q, dictFloat F.float first "effusion_rate" = .ok q) ∧ CurvesIn F.float rest x.curves
  line : ∃ profile far second q0 samples, lookup disk (F.canon slopeFile) = some profile ∧
    RunOutLine round F.float x.text profile x.line far second q0 samples

end PyFlowGo.Spec
