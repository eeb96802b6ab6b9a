import Verif.Proofs.JsonLaid
import Verif.Props.JsonText
/-
  C79: the layout of the configuration files that the package writes.
-/
set_option linter.unusedSectionVars false
namespace PyFlowGo
open Spec
variable {α : Type}

/-- **C79**, layout. What `json.dump` writes is indented by four spaces for each open bracket, with no blank lines, whatever
    the nesting, the keys and the values. -/
theorem C79_indented (sn : α → List Char) (j : Json α) (hn : NumsAll (fun x => RealText (sn x) ∨ FloatConstant (sn x)) j) :
    Indented (jsonDump sn j) := (dumpValue_block sn 0 j hn).laid

/-- Non-vacuity: a nested object and its text. -/
example : NumsAll (fun x : ℤ => RealText ((fun _ => "0.5".toList) x) ∨ FloatConstant ((fun _ => "0.5".toList) x))
      (.obj [("a", .obj [("b", .int 1), ("}", .str "{")]), ("c", .arr [])]) ∧
    jsonDump (fun _ : ℤ => "0.5".toList) (.obj [("a", .obj [("b", .int 1), ("}", .str "{")]), ("c", .arr [])]) =
      "{\n    \"a\": {\n        \"b\": 1,\n        \"}\": \"{\"\n    },\n    \"c\": []\n}".toList := by
  refine ⟨by simp [NumsAll, NumsMembers, NumsElements], ?_⟩
  simp [jsonDump, dumpValue, dumpMembers, dumpString, dumpInt, natDigits, newlineIndent, escapeChar, List.replicate]

/-- Non-vacuity: two spaces are not four. -/
example : ¬ Indented "{\n  \"a\": 1\n}".toList := by
  intro h
  obtain ⟨m, line, e, hne, hs, hn⟩ := h ['{'] "  \"a\": 1\n}".toList rfl
  have : nesting ['{'] = (1, .outside) := by decide
  rw [this] at hn
  have hm : (if Closing line then m + 1 else m) = 1 := (congrArg Prod.fst hn).symm
  by_cases hc : Closing line
  · rw [if_pos hc] at hm
    have : m = 0 := by omega
    subst this
    rw [show List.replicate (4 * 0) ' ' = [] from rfl, List.nil_append] at e
    rw [← e] at hs
    exact hs rfl
  · rw [if_neg hc] at hm
    subst hm
    have := congrArg (fun t => t[2]?) e
    rw [show List.replicate (4 * 1) ' ' = [' ', ' ', ' ', ' '] from rfl] at this
    revert this
    simp

end PyFlowGo
