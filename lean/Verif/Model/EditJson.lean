import Verif.Model.Json
/-
  edit_json.py: `render_json` (39-71), `rebuild_dict` (119-164), `save_changes` (166-174), without tkinter: an entry
  widget is the text it holds, `labels` maps a display key to the text of the widget stored under it.
-/
namespace PyFlowGo
variable {α : Type}

/-- Python's `str` of a JSON leaf and `json.loads`, as functions (the text formats themselves are in the
    trusted base). -/
structure TextCodec (α : Type) where
  /-- `str(value)`, edit_json.py:61 -/
  str : Json α → String
  /-- `json.loads(text)`; `none` when it raises -/
  loads : String → Option (Json α)

/-- edit_json.py:42 and 122: `f"{parent_key}.{key}" if parent_key else key` (`parent_key` is None at the top, which
    is treated like the empty text). -/
def displayKey (parent : String) (key : String) : String :=
  if parent = "" then key else parent ++ "." ++ key

mutual
/-- edit_json.py:39-71 `render_json`: the assignments `labels[display_key] = entry` in rendering order, with the text
    inserted in the entry. -/
def renderPairs (c : TextCodec α) (parent : String) : List (String × Json α) → List (String × String)
  | [] => []
  | (k, v) :: rest => renderValue c (displayKey parent k) v ++ renderPairs c parent rest
/-- One value: sections recurse (lines 44-54), anything else, lists included, becomes one text field (56-71). -/
def renderValue (c : TextCodec α) (dk : String) : Json α → List (String × String)
  | .obj l => renderPairs c dk l
  | .null => [(dk, c.str .null)]
  | .bool b => [(dk, c.str (.bool b))]
  | .int n => [(dk, c.str (.int n))]
  | .num x => [(dk, c.str (.num x))]
  | .str s => [(dk, c.str (.str s))]
  | .arr l => [(dk, c.str (.arr l))]
end

/-- `labels.get(display_key)`: the last assignment to a display key wins. -/
def labelOf (labels : List (String × String)) (dk : String) : Option String :=
  lookup labels.reverse dk

/-- The user types `text` in the field stored under `dk`. -/
def typeText (labels : String → Option String) (dk text : String) : String → Option String :=
  fun k => if k = dk then (labels k).map fun _ => text else labels k

/-- edit_json.py:127-131 and 142-145: `json.loads(text)`, or the text itself when that raises. -/
def parseField (c : TextCodec α) (text : String) : Json α := (c.loads text).getD (.str text)

/-- A pair of widgets added by `add_new_entry_to_section` (edit_json.py:85-115) with the texts typed in them, both
    stripped (139-140). `section` is what `temp_key.rsplit(".new_entry_", 1)[0]` (line 147) gives back: the temporary key
    ends in `.new_entry_` and digits. -/
structure NewEntry where
  sectionKey : String
  key : String
  value : String

/-- `text.split(".")` on characters. -/
def splitDots : List Char → List (List Char)
  | [] => [[]]
  | c :: cs =>
    if c = '.' then [] :: splitDots cs
    else match splitDots cs with
      | [] => [[c]]
      | h :: t => (c :: h) :: t

/-- edit_json.py:148-151: the parts of the section key; no parts for the empty key. -/
def sectionPath (key : String) : List String :=
  if key = "" then [] else (splitDots key.toList).map String.ofList

/-- `d[k] = v` on an OrderedDict. -/
def assign {ν : Type} (l : List (String × ν)) (k : String) (v : ν) : List (String × ν) :=
  match l with
  | [] => [(k, v)]
  | (k', v') :: rest => if k' = k then (k, v) :: rest else (k', v') :: assign rest k v

/-- Does `p` occur in the text? -/
def occursIn (p : List Char) : List Char → Bool
  | [] => p.isEmpty
  | c :: cs => p.isPrefixOf (c :: cs) || occursIn p cs

/-- `part in text`: substring test. -/
def isSubstring (p s : String) : Bool := occursIn p.toList s.toList

/-- edit_json.py:146-160: walk down the parts of the section key; when one is missing the entry is skipped; at the end
    the entry is stored if a dictionary was reached. On the way, `part in x` is a substring test on a text and a
    membership test on a list (indexing either with a text then raises TypeError), and raises TypeError on a number, a
    boolean or null. -/
def addEntry (k : String) (v : Json α) : List String → Json α → Except Err (Json α)
  | [], .obj l => .ok (.obj (assign l k v))
  | [], j => .ok j
  | p :: rest, .obj l =>
    match lookup l p with
    | none => .ok (.obj l)
    | some child => do
      let child' ← addEntry k v rest child
      return .obj (assign l p child')
  | p :: _, .str s => if isSubstring p s then .error .typeError else .ok (.str s)
  | p :: _, .arr xs =>
    if xs.any (fun x => match x with | .str s => s == p | _ => false) then .error .typeError else .ok (.arr xs)
  | _ :: _, _ => .error .typeError

/-- edit_json.py:137-161: every new entry in turn; entries with an empty key are skipped. -/
def addEntries (c : TextCodec α) : List NewEntry → Json α → Except Err (Json α)
  | [], j => .ok j
  | e :: rest, j => do
    let j' ← if e.key = "" then pure j else addEntry e.key (parseField c e.value) (sectionPath e.sectionKey) j
    addEntries c rest j'

mutual
/-- edit_json.py:119-134, the loop of `rebuild_dict` over the items of a dictionary. -/
def rebuildPairs (c : TextCodec α) (labels : String → Option String) (entries : List NewEntry) (parent : String) :
    List (String × Json α) → Except Err (List (String × Json α))
  | [] => .ok []
  | (k, v) :: rest => do
    let v' ← rebuildValue c labels entries (displayKey parent k) v
    let rest' ← rebuildPairs c labels entries parent rest
    return match v' with
      | some v' => (k, v') :: rest'
      | none => rest'
/-- One value: a section is rebuilt by the recursive call (line 124), which also adds the new entries to what it
    built (136-161); a leaf is parsed from its text and dropped when it has none (`if entry_widget:`). -/
def rebuildValue (c : TextCodec α) (labels : String → Option String) (entries : List NewEntry) (dk : String) :
    Json α → Except Err (Option (Json α))
  | .obj l => do
    let l' ← rebuildPairs c labels entries dk l
    let j ← addEntries c entries (.obj l')
    return some j
  | _ => .ok ((labels dk).map (parseField c))
end

/-- edit_json.py:119-164 `rebuild_dict(data)`. -/
def rebuildDict (c : TextCodec α) (labels : String → Option String) (entries : List NewEntry)
    (data : List (String × Json α)) : Except Err (Json α) := do
  let l ← rebuildPairs c labels entries "" data
  addEntries c entries (.obj l)

/-- The texts shown when a file is opened. -/
def openedTexts (c : TextCodec α) (data : List (String × Json α)) : String → Option String :=
  labelOf (renderPairs c "" data)

/-- Opening a file in the editor and saving it without editing any field: what is written (edit_json.py:166-170;
    nothing is written when `rebuild_dict` raises). -/
def openAndSave (c : TextCodec α) (data : List (String × Json α)) : Except Err (Json α) :=
  rebuildDict c (openedTexts c data) [] data

end PyFlowGo
