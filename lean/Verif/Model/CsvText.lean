import Verif.Model.Csv
import Verif.Model.TextFile
/-
  The text of a csv file as `csv.DictWriter` writes it (flowgo_logger.py:51-59, run_outs.py:15-17 and 88) and `csv.reader` /
  `csv.DictReader` reads it (run_outs.py:30-31, plot_flowgo_results.py:91-96, crystallization_rate_model_melts.py:77-78),
  default dialect "excel": delimiter `,`, quote character `"` doubled inside, QUOTE_MINIMAL, line terminator `\r\n`.
  The library functions are modelled after CPython's Modules/_csv.c and Lib/csv.py.
-/
namespace PyFlowGo

/-- QUOTE_MINIMAL: a field with a delimiter, a quote or a line-break character is quoted. -/
def needsQuote (d : Char) (f : List Char) : Bool := f.any fun c => c == d || c == '"' || c == '\n' || c == '\r'

/-- One field as written. -/
def quoteField (d : Char) (f : List Char) : List Char :=
  if needsQuote d f then '"' :: (f.flatMap fun c => if c = '"' then ['"', '"'] else [c]) ++ ['"'] else f

/-- `writer.writerow(fields)`: a row of a single empty field is written as `""`. -/
def csvWriteRow (d : Char) (fs : List (List Char)) : List Char :=
  (if fs = [[]] then ['"', '"'] else List.intercalate [d] (fs.map (quoteField d))) ++ ['\r', '\n']

/-- All rows. -/
def csvWrite (d : Char) (rows : List (List (List Char))) : List Char := rows.flatMap (csvWriteRow d)

/-- States of the reader. -/
inductive CsvMode | startRecord | startField | inField | inQuoted | quoteInQuoted | eatCrnl
  deriving DecidableEq, Repr

/-- Reader: state, field being read, fields of the record read so far. -/
structure CsvReader where
  mode : CsvMode
  field : List Char
  fields : List (List Char)

/-- A reader at the start of a record. -/
def CsvReader.start : CsvReader := ⟨.startRecord, [], []⟩

/-- `parse_save_field`. -/
def CsvReader.save (s : CsvReader) (m : CsvMode) : CsvReader := ⟨m, [], s.fields ++ [s.field]⟩

/-- `parse_process_char` (`none`: the end-of-line mark that follows the last character of a line). -/
def CsvReader.char (d : Char) (s : CsvReader) (c : Option Char) : Except Err CsvReader :=
  let newline := c = some '\n' ∨ c = some '\r'
  let startField : CsvReader :=
    match c with
    | none => s.save .startRecord
    | some c =>
      if c = '\n' ∨ c = '\r' then s.save .eatCrnl
      else if c = '"' then { s with mode := .inQuoted }
      else if c = d then s.save .startField
      else { s with mode := .inField, field := s.field ++ [c] }
  match s.mode with
  | .startRecord =>
    match c with
    | none => .ok s
    | some ch => if ch = '\n' ∨ ch = '\r' then .ok { s with mode := .eatCrnl } else .ok startField
  | .startField => .ok startField
  | .inField =>
    match c with
    | none => .ok (s.save .startRecord)
    | some ch =>
      if ch = '\n' ∨ ch = '\r' then .ok (s.save .eatCrnl)
      else if ch = d then .ok (s.save .startField)
      else .ok { s with field := s.field ++ [ch] }
  | .inQuoted =>
    match c with
    | none => .ok s
    | some ch => if ch = '"' then .ok { s with mode := .quoteInQuoted } else .ok { s with field := s.field ++ [ch] }
  | .quoteInQuoted =>
    match c with
    | none => .ok (s.save .startRecord)
    | some ch =>
      if ch = '"' then .ok { s with mode := .inQuoted, field := s.field ++ [ch] }
      else if ch = d then .ok (s.save .startField)
      else if ch = '\n' ∨ ch = '\r' then .ok (s.save .eatCrnl)
      else .ok { s with mode := .inField, field := s.field ++ [ch] }
  | .eatCrnl =>
    match c with
    | none => .ok { s with mode := .startRecord }
    | some _ => if newline then .ok s else .error .valueError

/-- The characters of one line. -/
def CsvReader.feed (d : Char) (s : CsvReader) : List Char → Except Err CsvReader
  | [] => .ok s
  | c :: r => do
    let s ← s.char d (some c)
    s.feed d r

/-- `Reader_iternext` until the end of the file: the records. -/
def csvRecords (d : Char) : List (List Char) → CsvReader → Except Err (List (List (List Char)))
  | [], s => .ok (if s.field ≠ [] ∨ s.mode = .inQuoted then [s.fields ++ [s.field]] else [])
  | line :: rest, s => do
    let s ← s.feed d line
    let s ← s.char d none
    if s.mode = .startRecord then do
      let rs ← csvRecords d rest .start
      return s.fields :: rs
    else csvRecords d rest s

/-- `csv.reader(open(filename, 'r'))`. -/
def csvRead (d : Char) (text : List Char) : Except Err (List (List (List Char))) := csvRecords d (fileLines (universal text)) .start

/-- One record of `csv.DictReader` (Lib/csv.py `__next__`): the field names paired with the fields; missing fields become
    None (`restval`). Fields beyond the names are kept by Python under the key None, which nobody looks up; they are left
    out. -/
def dictZip : List (List Char) → List (List Char) → List (List Char × Option (List Char))
  | [], _ => []
  | n :: ns, [] => (n, none) :: dictZip ns []
  | n :: ns, f :: fs => (n, some f) :: dictZip ns fs

/-- `csv.DictReader(csvfile, delimiter=',')` (run_outs.py:31, plot_flowgo_results.py:92): the first record gives the names,
    every further non-empty record a dictionary. -/
def dictRead (d : Char) (text : List Char) : Except Err (List (List (List Char × Option (List Char)))) := do
  let records ← csvRead d text
  match records with
  | [] => return []
  | header :: rows => return (rows.filter (· ≠ [])).map (dictZip header)

/-- `row[name]`: KeyError without the name; with a repeated name the last one counts. -/
def dictField (row : List (List Char × Option (List Char))) (name : String) : Except Err (Option (List Char)) :=
  match row.reverse.lookup name.toList with
  | none => .error .keyError
  | some f => .ok f

/-- `float(row[name])` (run_outs.py:34-43): TypeError on None, ValueError on a text that is no number. -/
def dictFloat {α : Type} (pf : List Char → Option α) (row : List (List Char × Option (List Char))) (name : String) :
    Except Err α := do
  match ← dictField row name with
  | none => .error .typeError
  | some f => match pf f with
    | none => .error .valueError
    | some x => .ok x

/-- The column a reader of the file collects with `float(row[name])`. -/
def textColumn {α : Type} (pf : List Char → Option α) (text : List Char) (name : String) : Except Err (List α) := do
  let rows ← dictRead ',' text
  rows.mapM fun r => dictFloat pf r name

/-- The text of a cell: `str` of the value, the empty text when the row lacks the key (`restval=''`). -/
def cellText {ν : Type} (render : ν → List Char) : Option ν → List Char
  | none => []
  | some x => render x

/-- flowgo_logger.py:51-59: the characters handed to the file. -/
def CsvTable.text {ν : Type} (render : ν → List Char) (t : CsvTable ν) : List Char :=
  csvWrite ',' (t.header.map String.toList :: t.rows.map fun r => r.map (cellText render))

/-- `open(filename, 'w')` without `newline=`: on Windows every `\n` is stored as `\r\n`, elsewhere characters are stored
    as they are. -/
def stored (windows : Bool) (text : List Char) : List Char :=
  if windows then text.flatMap fun c => if c = '\n' then ['\r', '\n'] else [c] else text

end PyFlowGo
