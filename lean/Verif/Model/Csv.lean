import Verif.Model.Logger
/-
  flowgo_logger.py:47-59 `write_values_to_file` (csv.DictWriter) and csv.DictReader as used by
  run_outs.py:30-43.
-/
namespace PyFlowGo
variable {ν : Type}

/-- A written table: header and rows of cells; `none` is the empty string DictWriter writes for a
    missing key (`restval=''`). -/
structure CsvTable (ν : Type) where
  header : List String
  rows : List (List (Option ν))

/-- `DictWriter.writerow`: ValueError if the row has a key that is not a field name
    (`extrasaction='raise'`). -/
def csvRow (header : List String) (r : Row ν) : Except Err (List (Option ν)) :=
  if r.keys.all (fun k => header.contains k) then .ok (header.map (fun k => r.get? k))
  else .error .valueError

/-- flowgo_logger.py:47-59: no file is written when the log is empty (`none`). -/
def writeValues (log : Log ν) : Except Err (Option (CsvTable ν)) :=
  match log with
  | [] => .ok none
  | r0 :: _ => do
    let rows ← log.mapM (csvRow r0.keys)
    return some { header := r0.keys, rows := rows }

/-- `csv.DictReader`: the cell of a column in each row (`none` = empty text). A missing column is a
    KeyError. -/
def CsvTable.column (t : CsvTable ν) (name : String) : Except Err (List (Option ν)) :=
  match t.header.findIdx? (· == name) with
  | none => .error .keyError
  | some i => .ok (t.rows.map (fun r => (r[i]?).getD none))

end PyFlowGo
