import Verif.Model.CsvText
/-
  What is left of a csv file when writing it stops half-way.
-/
namespace PyFlowGo.Spec

/-- A text that the csv writer does not put in quotes. -/
def PlainText (d : Char) (f : List Char) : Prop := ∀ c ∈ f, c ≠ d ∧ c ≠ '"' ∧ c ≠ '\n' ∧ c ≠ '\r'

/-- `CutOff d windows rows text records`: `text` is a beginning of the csv file of `rows`, and `records` are the records in
    it. (An end-of-line is stored as `\r\n`, on Windows as `\r\r\n`.) -/
inductive CutOff (d : Char) (windows : Bool) (rows : List (List (List Char))) :
    List Char → List (List (List Char)) → Prop where
  /-- cut after a complete line -/
  | between (pre post : List (List (List Char))) (h : rows = pre ++ post) :
      CutOff d windows rows (stored windows (csvWrite d pre)) pre
  /-- cut in the field `f ++ g`, of which `f` was written, after the fields `fs` -/
  | inside (pre post : List (List (List Char))) (fs : List (List Char)) (f g : List Char) (rest : List (List Char))
      (h : rows = pre ++ (fs ++ (f ++ g) :: rest) :: post) (hne : fs ≠ [] ∨ f ≠ []) :
      CutOff d windows rows (stored windows (csvWrite d pre) ++ List.intercalate [d] (fs ++ [f])) (pre ++ [fs ++ [f]])
  /-- cut inside an end-of-line -/
  | inNewline (pre post : List (List (List Char))) (r : List (List Char)) (h : rows = pre ++ r :: post) (e : List Char)
      (he : e = ['\r'] ∨ (windows = true ∧ e = ['\r', '\r'])) :
      CutOff d windows rows (stored windows (csvWrite d pre) ++ (List.intercalate [d] r ++ e)) (pre ++ [r])

/-- The text of the value a row has in a column; empty if it has none. -/
def valueText {ν : Type} (render : ν → List Char) (r : Row ν) (name : String) : List Char := (r.get? name).elim [] render

/-- The dictionary of a complete row. -/
def wholeRow {ν : Type} (render : ν → List Char) (header : List String) (r : Row ν) : List (List Char × Option (List Char)) :=
  header.map fun name => (name.toList, some (valueText render r name))

/-- The dictionary of a row that was cut in column `j`, of which `f` was written: the columns before are as they were, those
    after are None. -/
def cutRow {ν : Type} (render : ν → List Char) (header : List String) (r : Row ν) (j : Nat) (f : List Char) :
    List (List Char × Option (List Char)) :=
  header.mapIdx fun i name => (name.toList, if i < j then some (valueText render r name) else if i = j then some f else none)

end PyFlowGo.Spec
