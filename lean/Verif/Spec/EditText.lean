import Verif.Spec.JsonText
/-
  Which fields of a configuration look the same after Python's `str` and `json.loads`, independent of the editor.
-/
namespace PyFlowGo.Spec
variable {α : Type}

/-- A float whose text is a JSON number that reads back as the float: the finite ones. -/
def FiniteText (pf : List Char → Option α) (ss : α → List Char) (x : α) : Prop := RealText (ss x) ∧ pf (ss x) = some x

/-- Python's `str` of floats: a readable literal, or `nan`, `inf`, `-inf`, which are not JSON. -/
def FloatFormat (pf : List Char → Option α) (ss : α → List Char) : Prop :=
  ∀ x, FiniteText pf ss x ∨ ss x = ['n', 'a', 'n'] ∨ ss x = ['i', 'n', 'f'] ∨ ss x = ['-', 'i', 'n', 'f']

/-- A character whose `repr` (without the quote) is also its JSON text: tab, line feed, carriage return, printable
    characters (`pr` outside ASCII) and non-printable characters written `\uXXXX`. -/
def SameInJson (pr : Char → Bool) (c : Char) : Prop :=
  c = '\t' ∨ c = '\n' ∨ c = '\r' ∨
    (32 ≤ c.toNat ∧ c.toNat ≠ 127 ∧ (c.toNat < 127 ∨ pr c = true ∨ (256 ≤ c.toNat ∧ c.toNat < 65536)))

/-- A text whose `repr` is JSON: one that is put in double quotes because it contains a single and no double quote. -/
def SameText (pr : Char → Bool) (s : List Char) : Prop := '\'' ∈ s ∧ '"' ∉ s ∧ ∀ c ∈ s, SameInJson pr c

mutual
/-- An element of a list whose `repr` is JSON for it. -/
def ElementKept (pf : List Char → Option α) (ss : α → List Char) (pr : Char → Bool) : Json α → Prop
  | .null => False
  | .bool _ => False
  | .int _ => True
  | .num x => FiniteText pf ss x
  | .str s => SameText pr s.toList
  | .arr l => ElementsKept pf ss pr l
  | .obj _ => False
/-- … all elements. -/
def ElementsKept (pf : List Char → Option α) (ss : α → List Char) (pr : Char → Bool) : List (Json α) → Prop
  | [] => True
  | v :: vs => ElementKept pf ss pr v ∧ ElementsKept pf ss pr vs
end

/-- A field that an unedited save keeps: an integer, a finite number, a text that is not JSON, a list of such elements. -/
def FieldKept (pf : List Char → Option α) (ss : α → List Char) (pr : Char → Bool) : Json α → Prop
  | .str s => ¬ ∃ j, JsonText pf s.toList j
  | v => ElementKept pf ss pr v

end PyFlowGo.Spec
