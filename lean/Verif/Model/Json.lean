import Verif.Model.Terrain
/-
  Configuration files: the tree returned by `json.load` and the accesses the readers make
  (`data[section][key]`, `key not in data[section]`, `float(...)`, `== "name"`).
-/
namespace PyFlowGo
variable {α : Type}

/-- A value returned by `json.load`. Objects have distinct keys (a repeated key in the text keeps only
    its last value); on the model's side lookups return the first match. -/
inductive Json (α : Type) where
  | null
  | bool (b : Bool)
  | int (n : Int)
  | num (x : α)
  | str (s : String)
  | arr (l : List (Json α))
  | obj (l : List (String × Json α))

/-- What the program reads from outside apart from the JSON configuration. -/
structure Env (α : Type) where
  /-- `float(text)`; `none` is ValueError -/
  parseFloat : String → Option α
  /-- `str(x)` of a float, used in file names (`f"{...}"`) -/
  showNum : α → String
  /-- `f"{x}"` of the remaining JSON values (null, lists, objects) -/
  showOther : Json α → String
  /-- the parsed data lines of a slope file (header dropped); `none` if it cannot be opened -/
  slopeFile : String → Option (List (SlopeLine α))
  /-- the parsed rows of a crust-temperature file; `none` if it cannot be opened -/
  crustFile : String → Option (List (α × α))
  /-- the file a path denotes: two paths denote the same file iff their images are equal -/
  canon : String → String

/-- First value of a key. -/
def lookup {ν : Type} (l : List (String × ν)) (k : String) : Option ν :=
  (l.find? (fun kv => kv.1 == k)).map Prod.snd

/-- `data[k]` with a string `k`: KeyError on an object without the key, TypeError on anything that is
    not an object. -/
def Json.get (j : Json α) (k : String) : Except Err (Json α) :=
  match j with
  | .obj l => match lookup l k with
    | some v => .ok v
    | none => .error .keyError
  | _ => .error .typeError

/-- `value == "text"`. -/
def Json.isStr (j : Json α) (t : String) : Bool :=
  match j with
  | .str s => s == t
  | _ => false

/-- `k in data` for a string `k`: a key of an object, an element of a list, a piece of a text; TypeError on anything else. -/
def Json.has (j : Json α) (k : String) : Except Err Bool :=
  match j with
  | .obj l => .ok (lookup l k).isSome
  | .arr l => .ok (l.any fun x => x.isStr k)
  | .str s => .ok (decide (k.toList <:+: s.toList))
  | _ => .error .typeError

variable [OfScientific α] [PyNum α]

/-- `float(v)`. -/
def Json.toFloat (env : Env α) (j : Json α) : Except Err α :=
  match j with
  | .num x => .ok x
  | .int n => .ok (PyNum.ofInt n)
  | .bool b => .ok (if b then 1.0 else 0.0)
  | .str s => match env.parseFloat s with
    | some x => .ok x
    | none => .error .valueError
  | _ => .error .typeError

/-- `float(data[section][key])`. -/
def getF (env : Env α) (data : Json α) (sec key : String) : Except Err α := do
  let s ← data.get sec
  let v ← s.get key
  v.toFloat env

omit [OfScientific α] [PyNum α] in
/-- `if key not in data[section]: raise ValueError(...)`. -/
def requireKey (data : Json α) (sec key : String) : Except Err Unit := do
  let s ← data.get sec
  let b ← s.has key
  if b then .ok () else .error .valueError

end PyFlowGo
