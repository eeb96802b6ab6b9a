import Verif.Model.Logger
/-
  What a user of the logger sees, stated on the history of calls only.
-/
namespace PyFlowGo.Spec
variable {ν : Type}

/-- One call `add_variable(name, position, value)`. -/
structure LogOp (ν : Type) where
  name : String
  position : ν
  value : ν

/-- The log after a history of calls on an empty log. -/
def history [BEq ν] (ops : List (LogOp ν)) : Log ν :=
  ops.foldl (fun log o => log.addVariable o.name o.position o.value) []

/-- The distinct positions of a history, in order of first write. -/
def writtenPositions [BEq ν] (ops : List (LogOp ν)) : List ν := (ops.map (·.position)).eraseDups

/-- The value of the last call with this position and this name, if any. -/
def lastWrite [BEq ν] (ops : List (LogOp ν)) (position : ν) (name : String) : Option ν :=
  ((ops.filter (fun o => o.position == position && o.name == name)).getLast?).map (·.value)

end PyFlowGo.Spec
