import Verif.Model.Integrator
/-
  Vocabulary for statements about steps and runs, on the observable fields only.
-/
namespace PyFlowGo.Spec
variable {α : Type} [Add α] [Sub α] [Mul α] [Neg α] [OfScientific α] [PyNum α]

/-- `single_step` was called on an unfinished integrator, raised nothing and advanced the flow. -/
def AcceptedStep (g : Integrator α) (w w' : World α) : Prop :=
  w.finished = false ∧ singleStep g w = (.ok (), w') ∧ w'.iteration = w.iteration + 1

/-- `single_step` was called on an unfinished integrator, raised nothing and did not advance the flow. -/
def RejectedStep (g : Integrator α) (w w' : World α) : Prop :=
  w.finished = false ∧ singleStep g w = (.ok (), w') ∧ w'.iteration ≠ w.iteration + 1

/-- `k` accepted steps in a row: the worlds `ws 0, ..., ws k`. -/
def AcceptedRun (g : Integrator α) (k : Nat) (ws : Nat → World α) : Prop :=
  ∀ i, i < k → AcceptedStep g (ws i) (ws (i + 1))

/-- The cell of a log in the row of a position and the column `name`. -/
def cellAt {ν : Type} [BEq ν] (log : Log ν) (p : ν) (name : String) : Option ν :=
  (log.find? (fun r => r.atPosition p)).bind (fun r => r.get? name)

/-- The number in the row of a position and the column `name` (`none` if absent or not a number). -/
def loggedNum [PyNum α] (log : Log (Cell α)) (p : α) (name : String) : Option α :=
  match cellAt log (.num p) name with
  | some (.num x) => some x
  | _ => none

end PyFlowGo.Spec
