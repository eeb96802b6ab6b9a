import Verif.Model.EditJson
/-
  Vocabulary for the configuration editor: fields of a configuration by path.
-/
namespace PyFlowGo.Spec
variable {α : Type}

/-- A key that is not empty and contains no dot. -/
def CleanKey (k : String) : Prop := k ≠ "" ∧ '.' ∉ k.toList

mutual
/-- Every key, at every depth, is clean, and no dictionary has the same key twice (always so after `json.load`). -/
def CleanValue : Json α → Prop
  | .obj l => CleanPairs l ∧ (l.map Prod.fst).Nodup
  | _ => True
def CleanPairs : List (String × Json α) → Prop
  | [] => True
  | (k, v) :: rest => CleanKey k ∧ CleanValue v ∧ CleanPairs rest
end

mutual
/-- The fields (values that are not dictionaries) of a configuration with their paths; `q` is the path of the
    dictionary. -/
def fieldsValue (q : List String) : Json α → List (List String × Json α)
  | .obj l => fieldsPairs q l
  | v => [(q, v)]
def fieldsPairs (q : List String) : List (String × Json α) → List (List String × Json α)
  | [] => []
  | (k, v) :: rest => fieldsValue (q ++ [k]) v ++ fieldsPairs q rest
end

mutual
/-- The same configuration with every field replaced by a function of its path and value. -/
def mapFieldsValue (f : List String → Json α → Json α) (q : List String) : Json α → Json α
  | .obj l => .obj (mapFieldsPairs f q l)
  | v => f q v
def mapFieldsPairs (f : List String → Json α → Json α) (q : List String) :
    List (String × Json α) → List (String × Json α)
  | [] => []
  | (k, v) :: rest => (k, mapFieldsValue f (q ++ [k]) v) :: mapFieldsPairs f q rest
end

mutual
/-- All keys of the dictionaries inside a value. -/
def keysValue : Json α → List String
  | .obj l => l.map Prod.fst ++ innerKeys l
  | _ => []
/-- All keys of the dictionaries below a dictionary. -/
def innerKeys : List (String × Json α) → List String
  | [] => []
  | (_, v) :: rest => keysValue v ++ innerKeys rest
end

/-- The name a path is shown under: its keys joined by dots. -/
def pathKey : List String → String
  | [] => ""
  | [k] => k
  | k :: k' :: rest => k ++ "." ++ pathKey (k' :: rest)

/-- The value at a path. -/
def valueAt : Json α → List String → Option (Json α)
  | j, [] => some j
  | .obj l, k :: r => (lookup l k).bind fun v => valueAt v r
  | _, _ :: _ => none

/-- Facts about Python: `str(None)`, `str(True)`, `str(False)` are not JSON, `str` of a text is the text, an integer
    is read back from its `str`, and so is a number in the set `readable` (for floats: the finite ones). -/
structure PythonText (c : TextCodec α) (readable : α → Prop) : Prop where
  str_null : c.str .null = "None"
  str_true : c.str (.bool true) = "True"
  str_false : c.str (.bool false) = "False"
  str_str : ∀ s, c.str (.str s) = s
  loads_None : c.loads "None" = none
  loads_True : c.loads "True" = none
  loads_False : c.loads "False" = none
  loads_int : ∀ n, c.loads (c.str (.int n)) = some (.int n)
  loads_num : ∀ x, readable x → c.loads (c.str (.num x)) = some (.num x)

end PyFlowGo.Spec
