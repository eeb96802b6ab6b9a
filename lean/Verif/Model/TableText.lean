import Verif.Model.CsvText
import Verif.Model.CrustTemp
import Verif.Model.Crystal
/-
  The look-up tables read from text files.
-/
namespace PyFlowGo
variable {α : Type} [Add α] [Sub α] [Mul α] [OfScientific α] [PyNum α]

/-- flowgo_crust_temperature_model_field.py:63-81 from the text of the file. -/
def readCrustText (pf : List Char → Option α) (text : List Char) : Except Err (Spline α) := do
  let rows ← crustRows pf (dataLines text)
  readCrustField rows

omit [Add α] [Sub α] [Mul α] [OfScientific α] [PyNum α] in
/-- The loop of flowgo_crystallization_rate_model_melts.py:79-81. (The conversion to kelvin of line 80 is in
    `readMelts`.) -/
def meltsRows (pf : List Char → Option α) :
    List (List (List Char × Option (List Char))) → Except Err (List (α × α))
  | [] => .ok []
  | row :: rest => do
    let t ← dictFloat pf row "temperature"
    let f ← dictFloat pf row "fraq_microlite"
    let rows ← meltsRows pf rest
    return (t, f) :: rows

/-- flowgo_crystallization_rate_model_melts.py:70-82 from the text of the file. -/
def readMeltsText (pf : List Char → Option α) (text : List Char) : Except Err (Spline α) := do
  let dicts ← dictRead ',' text
  let rows ← meltsRows pf dicts
  readMelts rows

end PyFlowGo
