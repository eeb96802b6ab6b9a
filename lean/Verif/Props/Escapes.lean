import Verif.Props.JsonText
import Verif.Props.EditText
import Verif.Spec.Escape
/-
  C79, C80: how texts are written, character by character.
-/
namespace PyFlowGo
open Spec
variable {α : Type}

theorem hexChar_lower {d : Nat} (h : d < 16) : "0123456789abcdef".toList[d]? = some (hexChar d) := by
  interval_cases d <;> decide

theorem char_bound (c : Char) : c.toNat < 1114112 := by
  have := c.valid
  rcases this with h | ⟨_, h⟩
  · exact lt_trans h (by decide)
  · exact h

theorem uEscape_spec {n : Nat} (h : n < 65536) : UEscape n (uEscape n) := by
  refine ⟨_, rfl, rfl, [n / 4096 % 16, n / 256 % 16, n / 16 % 16, n % 16], ?_, ?_⟩
  · exact .cons (hexChar_lower (by omega)) (.cons (hexChar_lower (by omega)) (.cons (hexChar_lower (by omega))
      (.cons (hexChar_lower (by omega)) .nil)))
  · simp only [List.foldl]; omega

theorem escapeChar_piece (c : Char) : JsonPiece c (escapeChar c) := by
  unfold escapeChar
  split; · rename_i h; subst h; exact .backslash
  split; · rename_i h; subst h; exact .quote
  split; · rename_i h; subst h; exact .backspace
  split; · rename_i h; subst h; exact .formFeed
  split; · rename_i h; subst h; exact .lineFeed
  split; · rename_i h; subst h; exact .return
  split; · rename_i h; subst h; exact .tab
  split
  · rename_i h; exact .plain c h.1 h.2 ‹_› ‹_›
  split
  · rename_i h1 h2
    exact .code c h2 (by omega) ⟨‹_›, ‹_›, ‹_›, ‹_›, ‹_›⟩ _ (uEscape_spec h2)
  · rename_i h1 h2
    have hb := char_bound c
    have e1 : (c.toNat - 0x10000) / 1024 % 1024 = (c.toNat - 0x10000) / 1024 := Nat.mod_eq_of_lt (by omega)
    rw [e1]
    exact .surrogates c ((c.toNat - 0x10000) / 1024) ((c.toNat - 0x10000) % 1024) (by omega) (by omega) (by omega) _ _
      (uEscape_spec (by omega)) (uEscape_spec (by omega))

theorem reprChar_piece (pr : Char → Bool) (quote c : Char) (hq : quote ≠ '\n' ∧ quote ≠ '\r' ∧ quote ≠ '\t') :
    ReprPiece pr quote c (reprChar pr quote c) := by
  unfold reprChar
  split
  · rename_i h
    rcases h with h | h
    · subst h; exact .quote
    · subst h; exact .backslash
  rename_i h0
  rw [not_or] at h0
  split; · rename_i h; subst h; exact .tab
  split; · rename_i h; subst h; exact .lineFeed
  split; · rename_i h; subst h; exact .return
  have two : c.toNat < 256 → LowerHex [hexChar (c.toNat / 16 % 16), hexChar (c.toNat % 16)] c.toNat := by
    intro h
    refine ⟨[c.toNat / 16 % 16, c.toNat % 16], .cons (hexChar_lower (by omega)) (.cons (hexChar_lower (by omega)) .nil), ?_⟩
    simp only [List.foldl]; omega
  split
  · rename_i h
    exact .byte c (by omega) (by omega) ⟨‹_›, ‹_›, ‹_›⟩ _ rfl (two (by omega))
  rename_i h1
  split
  · rename_i h
    by_cases h2 : c.toNat < 127
    · exact .plain c (by omega) h2 h0.2 h0.1
    · exact .printable c (by omega) (by tauto)
  rename_i h2
  rw [not_or, Bool.not_eq_true] at h2
  split
  · rename_i h
    exact .byte c h (.inr (.inr ⟨by omega, h2.2⟩)) ⟨‹_›, ‹_›, ‹_›⟩ _ rfl (two h)
  split
  · rename_i h; exact .code c (by omega) h h2.2 _ (uEscape_spec h)
  · have hb := char_bound c
    refine .long c (by omega) h2.2 _ rfl ⟨[0, 0, c.toNat / 1048576 % 16, c.toNat / 65536 % 16, c.toNat / 4096 % 16, c.toNat / 256 % 16,
      c.toNat / 16 % 16, c.toNat % 16], ?_, ?_⟩
    · exact .cons (by decide) (.cons (by decide) (.cons (hexChar_lower (by omega)) (.cons (hexChar_lower (by omega))
        (.cons (hexChar_lower (by omega)) (.cons (hexChar_lower (by omega)) (.cons (hexChar_lower (by omega))
        (.cons (hexChar_lower (by omega)) .nil)))))))
    · simp only [List.foldl]; omega

theorem flatMap_pieces {P : Char → List Char → Prop} {f : Char → List Char} (h : ∀ c, P c (f c)) (s : List Char) :
    ∃ pieces, List.Forall₂ P s pieces ∧ s.flatMap f = pieces.flatten := by
  induction s with
  | nil => exact ⟨[], .nil, rfl⟩
  | cons c s ih => obtain ⟨ps, h1, h2⟩ := ih; exact ⟨f c :: ps, .cons (h c) h1, by simp [h2]⟩

/-- **C79**. A text in a written configuration: between double quotes, one piece per character. -/
theorem C79_written_text (sn : α → List Char) (s : String) :
    ∃ pieces, List.Forall₂ JsonPiece s.toList pieces ∧ jsonDump sn (.str s) = '"' :: (pieces.flatten ++ ['"']) := by
  obtain ⟨ps, h1, h2⟩ := flatMap_pieces escapeChar_piece s.toList
  exact ⟨ps, h1, by rw [← h2]; unfold jsonDump; rw [dumpValue]; rfl⟩

/-- **C80**. A text inside a list, as the editor shows it: between single quotes, unless it contains a single quote and no double
    quote, one piece per character. -/
theorem C80_shown_text (ss : α → List Char) (pr : Char → Bool) (od : List (String × Json α) → List Char) (s : String) :
    ∃ quote pieces, (('\'' ∈ s.toList ∧ '"' ∉ s.toList) ∧ quote = '"' ∨ ¬ ('\'' ∈ s.toList ∧ '"' ∉ s.toList) ∧ quote = '\'') ∧
      List.Forall₂ (ReprPiece pr quote) s.toList pieces ∧
      pyRepr ss pr od (.str s) = quote :: (pieces.flatten ++ [quote]) := by
  have hq : (('\'' ∈ s.toList ∧ '"' ∉ s.toList) ∧ reprQuote s.toList = '"' ∨
      ¬ ('\'' ∈ s.toList ∧ '"' ∉ s.toList) ∧ reprQuote s.toList = '\'') := by
    unfold reprQuote
    split
    · exact .inl ⟨‹_›, rfl⟩
    · exact .inr ⟨‹_›, rfl⟩
  have hn : reprQuote s.toList ≠ '\n' ∧ reprQuote s.toList ≠ '\r' ∧ reprQuote s.toList ≠ '\t' := by
    rcases hq with ⟨_, h⟩ | ⟨_, h⟩ <;> rw [h] <;> decide
  obtain ⟨ps, h1, h2⟩ := flatMap_pieces (fun c => reprChar_piece pr (reprQuote s.toList) c hn) s.toList
  exact ⟨_, ps, hq, h1, by rw [← h2, pyRepr]; rfl⟩

/-- Examples: e with acute accent, and a character beyond the basic plane. -/
example : jsonDump (fun _ : ℤ => []) (.str "é😀") = "\"\\u00e9\\ud83d\\ude00\"".toList := by
  unfold jsonDump; rw [dumpValue]; decide

example : pyRepr (fun _ : ℤ => []) (fun _ => false) (fun _ => []) (.str "é😀'") = "\"\\xe9\\U0001f600'\"".toList := by
  rw [pyRepr]; decide

end PyFlowGo
