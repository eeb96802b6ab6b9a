import Verif.Model.RunOuts
/-
  Reading numbers back from a log, column by column.
-/
namespace PyFlowGo.Spec
variable {α : Type}

/-- The number in a cell (`effusion_rate` is logged as text). -/
def cellNumber : Cell α → α
  | .num x => x
  | .text x => x

/-- Every row of the log has the column `name`, and `xs` are its numbers from top to bottom. -/
def ColumnIs (log : Log (Cell α)) (name : String) (xs : List α) : Prop :=
  ∃ cells : List (Cell α), log.getValues name = cells.map some ∧ xs = cells.map cellNumber

/-- The columns `run_outs` reads. -/
def runOutColumns : List String :=
  ["position", "slope", "core_temperature", "mean_velocity", "viscosity", "crystal_fraction", "channel_width",
   "channel_depth", "effusion_rate", "tho_0"]

end PyFlowGo.Spec
