import Verif.Model.Json
/-
  How deep a place in a JSON text is nested: the number of brackets that are open there. Brackets inside string literals do
  not count.
-/
namespace PyFlowGo.Spec

/-- Outside string literals, inside one, or behind a backslash inside one. -/
inductive Place where
  | outside
  | inString
  | escaped
deriving DecidableEq

/-- The effect of one character on the number of open brackets and the place. -/
def nestStep : Nat × Place → Char → Nat × Place
  | (d, .outside), c =>
    if c = '{' ∨ c = '[' then (d + 1, .outside)
    else if c = '}' ∨ c = ']' then (d - 1, .outside)
    else if c = '"' then (d, .inString)
    else (d, .outside)
  | (d, .inString), c => if c = '\\' then (d, .escaped) else if c = '"' then (d, .outside) else (d, .inString)
  | (d, .escaped), _ => (d, .inString)

/-- The number of brackets that are open at the end of a text, and the place. -/
def nesting (t : List Char) : Nat × Place := t.foldl nestStep (0, .outside)

/-- Closing bracket. -/
def Closing (t : List Char) : Prop := t.head? = some '}' ∨ t.head? = some ']'

instance (t : List Char) : Decidable (Closing t) := by unfold Closing; infer_instance

/-- Every line but the first begins with four spaces for each bracket that is open there; a line that begins with a closing
    bracket, with four less. No line is blank. -/
def Indented (text : List Char) : Prop :=
  ∀ before after, text = before ++ '\n' :: after → ∃ m line, after = List.replicate (4 * m) ' ' ++ line ∧ line ≠ [] ∧
    line.head? ≠ some ' ' ∧ nesting before = (if Closing line then m + 1 else m, .outside)

end PyFlowGo.Spec
