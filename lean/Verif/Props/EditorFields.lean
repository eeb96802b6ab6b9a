import Verif.Props.EditorExamples
import Mathlib.Data.List.Infix
/-
  C61 and C65: fields that are not there, and texts in the way of a new entry.
-/
set_option linter.unusedSectionVars false
namespace PyFlowGo
open Spec
variable {α : Type}

/-- The substring test finds exactly the texts that occur as one stretch. -/
theorem occursIn_iff (p : List Char) : ∀ s, occursIn p s = true ↔ p <:+: s
  | [] => by
    unfold occursIn
    rw [List.isEmpty_iff, List.infix_nil]
  | c :: cs => by
    unfold occursIn
    rw [Bool.or_eq_true, List.isPrefixOf_iff_prefix, occursIn_iff p cs, List.infix_cons_iff]

/-- **C61**. A name that is not shown as a field has no text the user could change: typing there changes nothing that is saved. -/
theorem C61_no_such_field (c : TextCodec α) (l : List (String × Json α)) (dk text : String) (h : openedTexts c l dk = none) :
    rebuildDict c (typeText (openedTexts c l) dk text) [] l = openAndSave c l := by
  have e : typeText (openedTexts c l) dk text = openedTexts c l := by
    funext k
    unfold typeText
    split
    · rename_i hk; rw [hk, h]; rfl
    · rfl
  unfold openAndSave
  rw [e]

/-- **C65** (what users do not expect). Let a file have a section `a` with a section `c` in it, and elsewhere, in a section `b`, a text `t` that is also called `a`. Then an entry added to
    `a.c` can be saved exactly when the letter `c` does not occur in that text; otherwise saving raises TypeError and the file is not written. -/
theorem C65_text_in_the_way (c : TextCodec α) (t : String) (ht : parseField c (c.str (.str t)) = .str t) (v : Json α) (y : String) (hv : parseField c y = v) :
    rebuildDict c (openedTexts c [("a", .obj [("c", .obj [])]), ("b", .obj [("a", .str t)])]) [⟨"a.c", "y", y⟩]
      [("a", .obj [("c", .obj [])]), ("b", .obj [("a", .str t)])] =
      (open Classical in if 'c' ∈ t.toList then .error .typeError else .ok (.obj [("a", .obj [("c", .obj [("y", v)])]), ("b", .obj [("a", .str t)])])) := by
  classical
  have hp : sectionPath "a.c" = ["a", "c"] := by decide
  have ho : isSubstring "c" t = decide ('c' ∈ t.toList) := by
    unfold isSubstring
    rw [Bool.eq_iff_iff, occursIn_iff, decide_eq_true_eq]
    show ['c'] <:+: _ ↔ _
    exact List.singleton_infix_iff ..
  by_cases h : 'c' ∈ t.toList
  · simp [rebuildDict, rebuildPairs, rebuildValue, addEntries, addEntry, hp, openedTexts, labelOf, renderPairs, renderValue,
      displayKey, lookup, Bind.bind, Except.bind, Pure.pure, Except.pure, ht, ho, h, assign, hv]
  · simp [rebuildDict, rebuildPairs, rebuildValue, addEntries, addEntry, hp, openedTexts, labelOf, renderPairs, renderValue,
      displayKey, lookup, Bind.bind, Except.bind, Pure.pure, Except.pure, ht, ho, h, assign, hv]

/-- **C65** is met by both kinds of texts. -/
example : 'c' ∈ ("basic" : String).toList ∧ 'c' ∉ ("dragoni" : String).toList ∧ parseField intCodec (intCodec.str (.int 2)) = .int 2 :=
  ⟨by decide, by decide, int_field 2⟩

end PyFlowGo
