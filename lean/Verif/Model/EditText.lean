import Verif.Model.EditJson
import Verif.Model.JsonText
/-
  edit_json.py on texts: what `str(value)` (line 61) writes in a field, `json.loads` of the text of a field (128 and 143), and
  opening and saving a file (13-15, 166-170). `ss` is `str` of a float, `pr` is `str.isprintable` of a character outside
  ASCII, `od` is what stands between the parentheses in the `repr` of an OrderedDict (it depends on the version of Python).
-/
namespace PyFlowGo
variable {α : Type}

/-- `'\\U%08x' % n`, CPython `unicode_repr`. -/
def bigEscape (n : Nat) : List Char :=
  ['\\', 'U', '0', '0', hexChar (n / 1048576 % 16), hexChar (n / 65536 % 16), hexChar (n / 4096 % 16), hexChar (n / 256 % 16),
    hexChar (n / 16 % 16), hexChar (n % 16)]

/-- One character in `repr` of a text with the given quote, CPython `unicode_repr`. -/
def reprChar (pr : Char → Bool) (quote c : Char) : List Char :=
  if c = quote ∨ c = '\\' then ['\\', c]
  else if c = '\t' then ['\\', 't'] else if c = '\n' then ['\\', 'n'] else if c = '\r' then ['\\', 'r']
  else if c.toNat < 32 ∨ c.toNat = 127 then ['\\', 'x', hexChar (c.toNat / 16 % 16), hexChar (c.toNat % 16)]
  else if c.toNat < 127 ∨ pr c = true then [c]
  else if c.toNat < 256 then ['\\', 'x', hexChar (c.toNat / 16 % 16), hexChar (c.toNat % 16)]
  else if c.toNat < 0x10000 then uEscape c.toNat
  else bigEscape c.toNat

/-- The quote `repr` chooses: single, unless the text contains a single quote and no double quote. -/
def reprQuote (s : List Char) : Char := if '\'' ∈ s ∧ '"' ∉ s then '"' else '\''

/-- `repr` of a text. -/
def reprText (pr : Char → Bool) (s : List Char) : List Char :=
  reprQuote s :: (s.flatMap (reprChar pr (reprQuote s)) ++ [reprQuote s])

mutual
/-- `repr(value)` of a loaded value; dictionaries are OrderedDict (edit_json.py:15). -/
def pyRepr (ss : α → List Char) (pr : Char → Bool) (od : List (String × Json α) → List Char) : Json α → List Char
  | .null => ['N', 'o', 'n', 'e']
  | .bool true => ['T', 'r', 'u', 'e']
  | .bool false => ['F', 'a', 'l', 's', 'e']
  | .int n => dumpInt n
  | .num x => ss x
  | .str s => reprText pr s.toList
  | .arr [] => ['[', ']']
  | .arr (v :: vs) => '[' :: (pyRepr ss pr od v ++ pyReprs ss pr od vs ++ [']'])
  | .obj l => ['O', 'r', 'd', 'e', 'r', 'e', 'd', 'D', 'i', 'c', 't', '('] ++ od l ++ [')']
/-- The further elements in the `repr` of a list. -/
def pyReprs (ss : α → List Char) (pr : Char → Bool) (od : List (String × Json α) → List Char) : List (Json α) → List Char
  | [] => []
  | v :: vs => ',' :: ' ' :: (pyRepr ss pr od v ++ pyReprs ss pr od vs)
end

/-- `str(value)`: a text is itself, everything else is its `repr`. -/
def pyStr (ss : α → List Char) (pr : Char → Bool) (od : List (String × Json α) → List Char) : Json α → List Char
  | .str s => s.toList
  | j => pyRepr ss pr od j

/-- The text functions of the editor (edit_json.py:61, 128-131 and 143-145). -/
def pyCodec (pf : List Char → Option α) (ss : α → List Char) (pr : Char → Bool) (od : List (String × Json α) → List Char) :
    TextCodec α where
  str j := String.ofList (pyStr ss pr od j)
  loads s := (jsonLoads pf s.toList).toOption

/-- Opening the file with content `text` and pressing "Save" (edit_json.py:13-15, 166-170): the new content of the file. A
    file that is not a JSON object has no `items()` (AttributeError). -/
def editFile (pf : List Char → Option α) (ss sn : α → List Char) (pr : Char → Bool) (od : List (String × Json α) → List Char)
    (text : List Char) : Except Err (List Char) := do
  let data ← jsonLoad pf text
  match data with
  | .obj l =>
    let j ← openAndSave (pyCodec pf ss pr od) l
    return jsonDump sn j
  | _ => .error .attributeError

end PyFlowGo
