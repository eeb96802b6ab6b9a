import Verif.Model.Terrain
/-
  Tab-separated profile files as a user writes them.
-/
namespace PyFlowGo.Spec

/-- The ways to end a line. -/
inductive Eol | lf | crlf | cr

def Eol.chars : Eol → List Char
  | .lf => ['\n']
  | .crlf => ['\r', '\n']
  | .cr => ['\r']

/-- A row: its fields separated by tabs. -/
def tabLine : List (List Char) → List Char
  | [] => []
  | [f] => f
  | f :: g :: fs => f ++ '\t' :: tabLine (g :: fs)

/-- A file: a header line, then one line per row; the last line may lack its end-of-line. -/
def tabFile (eol : Eol) (final : Bool) (header : List Char) : List (List (List Char)) → List Char
  | [] => header ++ if final then eol.chars else []
  | r :: rows => header ++ eol.chars ++ tabFile eol final (tabLine r) rows

/-- A text without line breaks. -/
def OneLine (l : List Char) : Prop := '\n' ∉ l ∧ '\r' ∉ l

/-- A row of fields without tabs and line breaks. -/
def CleanRow (r : List (List Char)) : Prop := r ≠ [] ∧ ∀ f ∈ r, '\t' ∉ f ∧ OneLine f

variable {α : Type}

/-- The first five fields are the five numbers of a profile line; whatever follows is ignored. -/
def RowIs (pf : List Char → Option α) (r : List (List Char)) (l : SlopeLine α) : Prop :=
  (r.take 5).map pf = [some l.lat, some l.lon, some l.elev, some l.dist, some l.slopeDeg]

/-- What one data line contributes to the terrain: nothing if its fifth field is a number up to 0.1, whatever the other
    fields are, and a sample if all five are numbers and the slope exceeds 0.1. -/
def LineGives [OfScientific α] [PyNum α] (pf : List Char → Option α) (r : List (List Char)) : Option (SlopeLine α) → Prop
  | none => ∃ f s, r[4]? = some f ∧ pf f = some s ∧ leB s 0.1 = true
  | some l => RowIs pf r l ∧ leB l.slopeDeg 0.1 = false

/-- Field `i` of a line is a number. -/
def IsNumber (pf : List Char → Option α) (r : List (List Char)) (i : Nat) : Prop := ∃ f x, r[i]? = some f ∧ pf f = some x

/-- The fields `cols` of a line are read in this order and the first that cannot be read gives the error: IndexError if
    the line has no such field, ValueError if it is not a number. -/
def FieldFails (pf : List Char → Option α) (r : List (List Char)) (cols : List Nat) (e : Err) : Prop :=
  ∃ pre c post, cols = pre ++ c :: post ∧ (∀ i ∈ pre, IsNumber pf r i) ∧
    (r[c]? = none ∧ e = .indexError ∨ ∃ f, r[c]? = some f ∧ pf f = none ∧ e = .valueError)

end PyFlowGo.Spec
