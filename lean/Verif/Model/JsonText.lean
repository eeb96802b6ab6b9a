import Verif.Model.CsvText
import Verif.Model.EffArray
/-
  Configuration files as texts: `json.load` and `json.dump(…, indent=4)` of CPython (json/decoder.py, json/scanner.py,
  json/encoder.py and their C versions), as used in run_flowgo.py:40-41, run_flowgo_effusion_rate_array.py:27-32 and 46-60,
  edit_json.py:14-15 and 167-168, and in every `read_initial_condition_from_json_file`.
  A text is a list of characters. `pf` is `float(text)`, `sn` is `float.__repr__`. Not modelled: the recursion limit, the
  limit on the digits of an `int`, and lone surrogates (Lean characters exclude them; here they are refused).
-/
namespace PyFlowGo
variable {α : Type}

/-- `WHITESPACE` (json/decoder.py). -/
def isJsonWs (c : Char) : Bool := c == ' ' || c == '\t' || c == '\n' || c == '\r'

/-- `_w(s, end).end()`: skips white space. -/
def skipWs (l : List Char) : List Char := l.dropWhile isJsonWs

/-- A hexadecimal digit (`0`-`9`, `a`-`f`, `A`-`F`). -/
def hexDigit (c : Char) : Option Nat :=
  if 48 ≤ c.toNat ∧ c.toNat ≤ 57 then some (c.toNat - 48)
  else if 97 ≤ c.toNat ∧ c.toNat ≤ 102 then some (c.toNat - 87)
  else if 65 ≤ c.toNat ∧ c.toNat ≤ 70 then some (c.toNat - 55)
  else none

/-- `_decode_uXXXX` (json/decoder.py). -/
def hex4 (a b c d : Char) : Option Nat := do
  let a ← hexDigit a
  let b ← hexDigit b
  let c ← hexDigit c
  let d ← hexDigit d
  return ((a * 16 + b) * 16 + c) * 16 + d

/-- `BACKSLASH` (json/decoder.py). -/
def backslash (c : Char) : Option Char :=
  if c = '"' then some '"' else if c = '\\' then some '\\' else if c = '/' then some '/'
  else if c = 'b' then some '\x08' else if c = 'f' then some '\x0c' else if c = 'n' then some '\n'
  else if c = 'r' then some '\r' else if c = 't' then some '\t' else none

/-- One character of a string literal: the character and the rest of the text (`py_scanstring`, one turn of its loop);
    `none` is JSONDecodeError. Not called on the closing quote. -/
def scanChar : List Char → Option (Char × List Char)
  | [] => none
  | c :: r =>
    if c.toNat < 32 then none
    else if c ≠ '\\' then some (c, r)
    else
      match r with
      | 'u' :: a :: b :: c :: d :: r =>
        match hex4 a b c d with
        | none => none
        | some n =>
          if 0xd800 ≤ n ∧ n ≤ 0xdbff then
            match r with
            | '\\' :: 'u' :: a :: b :: c :: d :: r =>
              match hex4 a b c d with
              | none => none
              | some m =>
                if 0xdc00 ≤ m ∧ m ≤ 0xdfff then some (Char.ofNat (0x10000 + ((n - 0xd800) * 1024 + (m - 0xdc00))), r)
                else none
            | _ => none
          else if 0xdc00 ≤ n ∧ n ≤ 0xdfff then none
          else some (Char.ofNat n, r)
      | e :: r => (backslash e).map fun c => (c, r)
      | [] => none

/-- `py_scanstring`: the string after its opening quote, and the rest of the text. -/
def scanString : Nat → List Char → Option (List Char × List Char)
  | 0, _ => none
  | n + 1, l =>
    match l with
    | '"' :: r => some ([], r)
    | l =>
      match scanChar l with
      | none => none
      | some (c, r) =>
        match scanString n r with
        | none => none
        | some (s, r) => some (c :: s, r)

/-- A decimal digit, `0`-`9`. -/
def isDec (c : Char) : Bool := decide (48 ≤ c.toNat ∧ c.toNat ≤ 57)

/-- The number of a digit string, `int(text)`. -/
def decValue (l : List Char) : Nat := l.foldl (fun n c => n * 10 + (c.toNat - 48)) 0

/-- `\d+` after a given prefix, or nothing. -/
def someDigits (pre l : List Char) : Option (List Char × List Char) :=
  if l.takeWhile isDec = [] then none else some (pre ++ l.takeWhile isDec, l.dropWhile isDec)

/-- `(\.\d+)?` of `NUMBER_RE` (json/scanner.py). -/
def scanFrac (l : List Char) : List Char × List Char :=
  match l with
  | '.' :: r => (someDigits ['.'] r).getD ([], l)
  | _ => ([], l)

/-- `([eE][-+]?\d+)?` of `NUMBER_RE`. -/
def scanExp (l : List Char) : List Char × List Char :=
  match l with
  | e :: r =>
    if e = 'e' ∨ e = 'E' then
      match r with
      | s :: r' =>
        if s = '+' ∨ s = '-' then (someDigits [e, s] r').getD ([], l)
        else (someDigits [e] r).getD ([], l)
      | [] => ([], l)
    else ([], l)
  | [] => ([], l)

/-- `(-?(?:0|[1-9]\d*))` of `NUMBER_RE`. -/
def scanInt (l : List Char) : Option (List Char × List Char) :=
  match l with
  | '-' :: r => (digits r).map fun o => ('-' :: o.1, o.2)
  | r => digits r
where
  digits (r : List Char) : Option (List Char × List Char) :=
    match r with
    | [] => none
    | c :: r =>
      if c = '0' then some (['0'], r)
      else if isDec c then some (c :: r.takeWhile isDec, r.dropWhile isDec)
      else none

/-- `int(text)` of an integer literal. -/
def intValue (t : List Char) : Int :=
  match t with
  | '-' :: t => -(decValue t : Int)
  | t => decValue t

/-- The number case of `_scan_once` (json/scanner.py). -/
def scanNumber (pf : List Char → Option α) (l : List Char) : Option (Json α × List Char) := do
  let (i, r) ← scanInt l
  let (f, r) := scanFrac r
  let (e, r) := scanExp r
  if f = [] ∧ e = [] then return (.int (intValue i), r)
  else
    let x ← pf (i ++ f ++ e)
    return (.num x, r)

/-- A fixed word at the start of the text. -/
def scanWord (w l : List Char) : Option (List Char) := if w.isPrefixOf l then some (l.drop w.length) else none

/-- The constants, numbers and float constants: the last cases of `_scan_once`. -/
def scanAtom (pf : List Char → Option α) (l : List Char) : Option (Json α × List Char) :=
  match scanWord "null".toList l with
  | some r => some (.null, r)
  | none =>
  match scanWord "true".toList l with
  | some r => some (.bool true, r)
  | none =>
  match scanWord "false".toList l with
  | some r => some (.bool false, r)
  | none =>
  match scanInt l with
  | some _ => scanNumber pf l
  | none =>
  match scanWord "NaN".toList l with
  | some r => (pf "NaN".toList).map fun x => (.num x, r)
  | none =>
  match scanWord "Infinity".toList l with
  | some r => (pf "Infinity".toList).map fun x => (.num x, r)
  | none =>
  match scanWord "-Infinity".toList l with
  | some r => (pf "-Infinity".toList).map fun x => (.num x, r)
  | none => none

/-- One item of `dict(pairs)`: a repeated key keeps its place and gets the new value. -/
def upsert (d : List (String × Json α)) (kv : String × Json α) : List (String × Json α) :=
  if (lookup d kv.1).isSome then d.map fun p => if p.1 == kv.1 then (p.1, kv.2) else p else d ++ [kv]

/-- `dict(pairs)` (and `OrderedDict(pairs)`, edit_json.py:15). -/
def dictOf (ps : List (String × Json α)) : List (String × Json α) := ps.foldl upsert []

mutual
/-- `_scan_once` (json/scanner.py); the first argument bounds the nesting and the length. -/
def scanValue (pf : List Char → Option α) : Nat → List Char → Option (Json α × List Char)
  | 0, _ => none
  | n + 1, l =>
    match l with
    | '"' :: r => (scanString r.length.succ r).map fun o => (.str (String.ofList o.1), o.2)
    | '{' :: r =>
      match skipWs r with
      | '}' :: r => some (.obj [], r)
      | r => (scanMembers pf n r).map fun o => (.obj (dictOf o.1), o.2)
    | '[' :: r =>
      match skipWs r with
      | ']' :: r => some (.arr [], r)
      | r => (scanElements pf n r).map fun o => (.arr o.1, o.2)
    | l => scanAtom pf l
/-- The loop of `JSONArray` (json/decoder.py). -/
def scanElements (pf : List Char → Option α) : Nat → List Char → Option (List (Json α) × List Char)
  | 0, _ => none
  | n + 1, l =>
    match scanValue pf n l with
    | none => none
    | some (v, r) =>
      match skipWs r with
      | ']' :: r => some ([v], r)
      | ',' :: r =>
        match scanElements pf n (skipWs r) with
        | none => none
        | some (vs, r) => some (v :: vs, r)
      | _ => none
/-- The loop of `JSONObject` (json/decoder.py). -/
def scanMembers (pf : List Char → Option α) : Nat → List Char → Option (List (String × Json α) × List Char)
  | 0, _ => none
  | n + 1, l =>
    match l with
    | '"' :: r =>
      match scanString r.length.succ r with
      | none => none
      | some (k, r) =>
        match skipWs r with
        | ':' :: r =>
          match scanValue pf n (skipWs r) with
          | none => none
          | some (v, r) =>
            match skipWs r with
            | '}' :: r => some ([(String.ofList k, v)], r)
            | ',' :: r =>
              match scanMembers pf n (skipWs r) with
              | none => none
              | some (ps, r) => some ((String.ofList k, v) :: ps, r)
            | _ => none
        | _ => none
    | _ => none
end

/-- `json.loads(text)`: JSONDecodeError (a ValueError) or the value. -/
def jsonLoads (pf : List Char → Option α) (text : List Char) : Except Err (Json α) :=
  match scanValue pf (2 * text.length + 1) (skipWs text) with
  | none => .error .valueError
  | some (v, r) => if skipWs r = [] then .ok v else .error .valueError

/-- `json.load(file)` of a file opened in text mode: `json.loads(file.read())`. -/
def jsonLoad (pf : List Char → Option α) (text : List Char) : Except Err (Json α) := jsonLoads pf (universal text)

/-- One lower-case hexadecimal digit, as in `'{0:04x}'.format(n)`. -/
def hexChar (n : Nat) : Char := if n < 10 then Char.ofNat (48 + n) else Char.ofNat (87 + n)

/-- `'\\u{0:04x}'.format(n)`. -/
def uEscape (n : Nat) : List Char :=
  ['\\', 'u', hexChar (n / 4096 % 16), hexChar (n / 256 % 16), hexChar (n / 16 % 16), hexChar (n % 16)]

/-- `replace` of `py_encode_basestring_ascii` (json/encoder.py) on one character. -/
def escapeChar (c : Char) : List Char :=
  if c = '\\' then ['\\', '\\'] else if c = '"' then ['\\', '"'] else if c = '\x08' then ['\\', 'b']
  else if c = '\x0c' then ['\\', 'f'] else if c = '\n' then ['\\', 'n'] else if c = '\r' then ['\\', 'r']
  else if c = '\t' then ['\\', 't']
  else if 32 ≤ c.toNat ∧ c.toNat ≤ 126 then [c]
  else if c.toNat < 0x10000 then uEscape c.toNat
  else uEscape (0xd800 + (c.toNat - 0x10000) / 1024 % 1024) ++ uEscape (0xdc00 + (c.toNat - 0x10000) % 1024)

/-- `py_encode_basestring_ascii`. -/
def dumpString (s : String) : List Char := '"' :: (s.toList.flatMap escapeChar ++ ['"'])

/-- The decimal digits of a natural number, `int.__repr__`. -/
def natDigits (n : Nat) : List Char :=
  if n < 10 then [Char.ofNat (48 + n)] else natDigits (n / 10) ++ [Char.ofNat (48 + n % 10)]

/-- `int.__repr__`. -/
def dumpInt (n : Int) : List Char :=
  match n with
  | .ofNat n => natDigits n
  | .negSucc n => '-' :: natDigits (n + 1)

/-- `'\n' + _indent * _current_indent_level` with `indent=4` (json/encoder.py). -/
def newlineIndent (level : Nat) : List Char := '\n' :: List.replicate (4 * level) ' '

mutual
/-- `_iterencode` (json/encoder.py) with `indent=4`. -/
def dumpValue (sn : α → List Char) (level : Nat) : Json α → List Char
  | .null => "null".toList
  | .bool true => "true".toList
  | .bool false => "false".toList
  | .int n => dumpInt n
  | .num x => sn x
  | .str s => dumpString s
  | .arr [] => ['[', ']']
  | .arr (v :: vs) =>
    '[' :: (newlineIndent (level + 1) ++ dumpValue sn (level + 1) v ++ dumpElements sn (level + 1) vs ++
      newlineIndent level ++ [']'])
  | .obj [] => ['{', '}']
  | .obj ((k, v) :: ps) =>
    '{' :: (newlineIndent (level + 1) ++ dumpString k ++ [':', ' '] ++ dumpValue sn (level + 1) v ++
      dumpMembers sn (level + 1) ps ++ newlineIndent level ++ ['}'])
/-- The further items of `_iterencode_list`. -/
def dumpElements (sn : α → List Char) (level : Nat) : List (Json α) → List Char
  | [] => []
  | v :: vs => ',' :: (newlineIndent level ++ dumpValue sn level v ++ dumpElements sn level vs)
/-- The further items of `_iterencode_dict`. -/
def dumpMembers (sn : α → List Char) (level : Nat) : List (String × Json α) → List Char
  | [] => []
  | (k, v) :: ps =>
    ',' :: (newlineIndent level ++ dumpString k ++ [':', ' '] ++ dumpValue sn level v ++ dumpMembers sn level ps)
end

/-- `json.dump(value, file, indent=4)`. -/
def jsonDump (sn : α → List Char) (j : Json α) : List Char := dumpValue sn 0 j

/-- Rewriting a configuration file: `data = json.load(…)`, some `data[k] = v`, `json.dump(data, …, indent=4)`
    (run_flowgo_effusion_rate_array.py:26-32 and 44-60). -/
def rewriteText (pf : List Char → Option α) (sn : α → List Char) (updates : List (String × Json α)) (text : List Char) :
    Except Err (List Char) := do
  let data ← jsonLoad pf text
  let d ← updates.foldlM (fun d kv => d.set kv.1 kv.2) data
  return jsonDump sn d

end PyFlowGo
