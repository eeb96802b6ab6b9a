import Verif.Model.Num
/-
  pyflowgo/flowgo_logger.py, for an arbitrary type `ν` of Python values with `==`.
-/
namespace PyFlowGo

variable {ν : Type}

/-- A Python `dict` with string keys: insertion ordered association list. -/
abbrev Row (ν : Type) := List (String × ν)

/-- `d.get(k, None)` -/
def Row.get? (d : Row ν) (k : String) : Option ν := (d.find? (fun kv => kv.1 == k)).map Prod.snd

/-- `d[k] = v`: replaces in place when the key exists, appends otherwise. -/
def Row.set (d : Row ν) (k : String) (v : ν) : Row ν :=
  match d with
  | [] => [(k, v)]
  | (k', v') :: rest => if k' == k then (k', v) :: rest else (k', v') :: Row.set rest k v

/-- `d.keys()` -/
def Row.keys (d : Row ν) : List String := d.map Prod.fst

/-- flowgo_logger.py:28-30, `_variables`: the rows of the log. The class is a process-wide singleton
    (lines 19-25), so one value of this type is threaded through everything. -/
abbrev Log (ν : Type) := List (Row ν)

variable [BEq ν]

/-- flowgo_logger.py:36, `position == current_entry.get('position', None)`
    (`==` against `None` is `False`). -/
def Row.atPosition (r : Row ν) (position : ν) : Bool :=
  match r.get? "position" with
  | some p => position == p
  | none => false

/-- The dictionary display `{'position': position, variable_name: value}` of flowgo_logger.py:45
    (a repeated key keeps its place and takes the later value). -/
def newRow (variableName : String) (position value : ν) : Row ν :=
  Row.set [("position", position)] variableName value

/-- flowgo_logger.py:32-45 `add_variable`: update the first row at this position, else append. -/
def Log.addVariable (log : Log ν) (variableName : String) (position value : ν) : Log ν :=
  match log with
  | [] => [newRow variableName position value]
  | r :: rest =>
    if r.atPosition position then r.set variableName value :: rest
    else r :: Log.addVariable rest variableName position value

omit [BEq ν] in
/-- flowgo_logger.py:61-67 `get_values`. -/
def Log.getValues (log : Log ν) (variableName : String) : List (Option ν) :=
  log.map (fun r => r.get? variableName)

omit [BEq ν] in
/-- flowgo_logger.py:69-70 `clear`. -/
def Log.clear (_log : Log ν) : Log ν := []

end PyFlowGo
