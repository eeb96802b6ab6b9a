import Verif.Proofs.JsonNesting
/-
  The layout of what `json.dump` writes: four spaces per nesting level.
-/
set_option linter.unusedSectionVars false
namespace PyFlowGo
open Spec
variable {α : Type}

/-- `Indented` for a piece of text at a given nesting level. -/
def Laid (d : ℕ) (t : List Char) : Prop :=
  ∀ a b, t = a ++ '\n' :: b → ∃ m c, b = List.replicate (4 * m) ' ' ++ c ∧ c ≠ [] ∧ c.head? ≠ some ' ' ∧
    nestFrom (d, .outside) a = (if Closing c then m + 1 else m, .outside)

theorem Laid.flat {d : ℕ} {t : List Char} (h : '\n' ∉ t) : Laid d t := by
  rintro a b rfl; exact absurd (by simp) h

theorem closing_append {c x : List Char} (h : c ≠ []) : Closing (c ++ x) ↔ Closing c := by
  unfold Closing; rw [List.head?_append_of_ne_nil _ h]

theorem Laid.append {d : ℕ} {x y : List Char} (hx : Laid d x) (hb : Balanced x) (hy : Laid d y) : Laid d (x ++ y) := by
  intro a b e
  rcases List.append_eq_append_iff.mp e with ⟨p, e1, e2⟩ | ⟨p, e1, e2⟩
  · -- the line feed is in y
    obtain ⟨m, c, hc, h1, h2, h3⟩ := hy p b e2
    refine ⟨m, c, hc, h1, h2, ?_⟩
    rw [e1, nestFrom_append, hb.whole, h3]
  · cases p with
    | nil =>
      rw [List.append_nil] at e1
      rw [List.nil_append] at e2
      obtain ⟨m, c, hc, h1, h2, h3⟩ := hy [] b e2.symm
      refine ⟨m, c, hc, h1, h2, ?_⟩
      rw [← e1, hb.whole]; exact h3
    | cons q p =>
      rw [List.cons_append] at e2
      obtain ⟨rfl, e3⟩ := List.cons.inj e2
      obtain ⟨m, c, hc, h1, h2, h3⟩ := hx a p e1
      refine ⟨m, c ++ y, by rw [e3, hc, List.append_assoc], by simp [h1], by rw [List.head?_append_of_ne_nil _ h1]; exact h2, ?_⟩
      rw [h3]; congr 1
      by_cases hcl : Closing c
      · rw [if_pos hcl, if_pos ((closing_append h1).mpr hcl)]
      · rw [if_neg hcl, if_neg (fun h => hcl ((closing_append h1).mp h))]

/-- A piece that begins a line. -/
def Inked (t : List Char) : Prop := ∃ c, t.head? = some c ∧ c ≠ ' ' ∧ c ≠ '}' ∧ c ≠ ']'

theorem Laid.newline {d m : ℕ} {c t : List Char} (hc : c.head? ≠ some ' ') (hne : c ≠ [])
    (hd : d = if Closing c then m + 1 else m) (ht : Laid d (c ++ t)) : Laid d (newlineIndent m ++ (c ++ t)) := by
  intro a b e
  unfold newlineIndent at e
  cases a with
  | nil =>
    rw [List.nil_append, List.cons_append] at e
    obtain ⟨-, e⟩ := List.cons.inj e
    refine ⟨m, c ++ t, e.symm, by simp [hne], by rw [List.head?_append_of_ne_nil _ hne]; exact hc, ?_⟩
    show (d, Place.outside) = _
    rw [hd]; congr 1
    by_cases hcl : Closing c
    · rw [if_pos hcl, if_pos ((closing_append hne).mpr hcl)]
    · rw [if_neg hcl, if_neg (fun h => hcl ((closing_append hne).mp h))]
  | cons q a =>
    rw [List.cons_append, List.cons_append] at e
    obtain ⟨rfl, e'⟩ := List.cons.inj e
    have hflat : Laid d (List.replicate (4 * m) ' ') := Laid.flat (fun h => by
      have := List.eq_of_mem_replicate h; revert this; decide)
    have hneu : ∀ x ∈ List.replicate (4 * m) ' ', Neutral x := fun x hx => by
      rw [List.eq_of_mem_replicate hx]; unfold Neutral; decide
    have := hflat.append (Balanced.neutral hneu) ht a b e'
    rw [nestFrom_cons, nestStep_neutral (by unfold Neutral; decide)]
    exact this

theorem newlineIndent_balanced (m : ℕ) : Balanced (newlineIndent m) := Balanced.neutral (ws_neutral (newlineIndent_ws m))

theorem Laid.next {d : ℕ} {t : List Char} (hi : Inked t) (h : Laid d t) : Laid d (newlineIndent d ++ t) := by
  obtain ⟨c, hc, h1, h2, h3⟩ := hi
  have hne : t ≠ [] := by rintro rfl; cases hc
  have := Laid.newline (d := d) (m := d) (c := t) (t := []) (by rw [hc]; simpa using h1) hne
    (by rw [if_neg]; unfold Closing; rw [hc]; simp [h2, h3]) (by rwa [List.append_nil])
  rwa [List.append_nil] at this

theorem Laid.close {d : ℕ} (c : Char) (h : c = '}' ∨ c = ']') : Laid (d + 1) (newlineIndent d ++ [c]) := by
  have := Laid.newline (d := d + 1) (m := d) (c := [c]) (t := []) (by rcases h with rfl | rfl <;> decide) (by simp)
    (by rw [if_pos]; unfold Closing; rcases h with rfl | rfl <;> decide)
    (Laid.flat (by rcases h with rfl | rfl <;> decide))
  rwa [List.append_nil] at this

theorem Laid.opened {d : ℕ} {t : List Char} (o : Char) (ho : o = '{' ∨ o = '[') (h : Laid (d + 1) t) : Laid d (o :: t) := by
  intro a b e
  cases a with
  | nil =>
    rw [List.nil_append] at e
    have := (List.cons.inj e).1
    rcases ho with rfl | rfl <;> exact absurd this (by decide)
  | cons q a =>
    rw [List.cons_append] at e
    obtain ⟨rfl, e'⟩ := List.cons.inj e
    rw [nestFrom_cons, show nestStep (d, .outside) o = (d + 1, .outside) by rcases ho with rfl | rfl <;> simp [nestStep]]
    exact h a b e'

/-- The characters of numbers. -/
def numChars : List Char := ['0', '1', '2', '3', '4', '5', '6', '7', '8', '9', '+', '-', '.', 'e', 'E', 'N', 'a', 'I', 'n', 'f', 'i', 't', 'y']

theorem digit_num {c : Char} (h : IsDigit c) : c ∈ numChars := by
  unfold IsDigit at h
  simp only [List.mem_cons, List.not_mem_nil, or_false] at h
  rcases h with rfl | rfl | rfl | rfl | rfl | rfl | rfl | rfl | rfl | rfl <;> decide

theorem int_num {t : List Char} {n : ℤ} (h : IntText t n) : (∀ c ∈ t, c ∈ numChars) ∧ t ≠ [] := by
  have hp : ∀ {t : List Char}, IntPart t → t ≠ [] := by rintro t (_ | _) <;> simp
  cases h with
  | pos _ h => exact ⟨fun c hc => digit_num (intPart_digits h c hc), hp h⟩
  | neg t h =>
    refine ⟨fun c hc => ?_, by simp⟩
    rcases List.mem_cons.mp hc with rfl | hc
    · decide
    · exact digit_num (intPart_digits h c hc)

theorem real_num {t : List Char} (h : RealText t ∨ FloatConstant t) : (∀ c ∈ t, c ∈ numChars) ∧ t ≠ [] := by
  rcases h with ⟨i, n, f, e, rfl, hi, hf, he, _⟩ | h
  · refine ⟨fun c hc => ?_, by simp [(int_num hi).2]⟩
    rcases List.mem_append.mp hc with hc | hc
    · rcases List.mem_append.mp hc with hc | hc
      · exact (int_num hi).1 c hc
      · rcases hf with rfl | ⟨a, t, rfl, ha, ht⟩
        · cases hc
        · rcases List.mem_cons.mp hc with rfl | hc
          · decide
          · rcases List.mem_cons.mp hc with rfl | hc
            · exact digit_num ha
            · exact digit_num (ht c hc)
    · rcases he with rfl | ⟨x, s, a, t, rfl, hx, hs, ha, ht⟩
      · cases hc
      · rcases List.mem_cons.mp hc with rfl | hc
        · rcases hx with rfl | rfl <;> decide
        · rcases List.mem_append.mp hc with hc | hc
          · rcases hs with rfl | rfl | rfl
            · cases hc
            · rw [List.mem_singleton.mp hc]; decide
            · rw [List.mem_singleton.mp hc]; decide
          · rcases List.mem_cons.mp hc with rfl | hc
            · exact digit_num ha
            · exact digit_num (ht c hc)
  · refine ⟨?_, ?_⟩ <;> rcases h with rfl | rfl | rfl <;> decide

theorem escapeChar_noLf (c : Char) : '\n' ∉ escapeChar c := by
  have hx : ∀ n, n < 16 → hexChar n ≠ '\n' := by intro n h; unfold hexChar; interval_cases n <;> decide
  have hu : ∀ n, '\n' ∉ uEscape n := by
    intro n hd
    unfold uEscape at hd
    simp only [List.mem_cons, List.not_mem_nil, or_false] at hd
    rcases hd with h | h | h | h | h | h
    · revert h; decide
    · revert h; decide
    all_goals exact hx _ (by omega) h.symm
  unfold escapeChar
  split
  · decide
  split
  · decide
  split
  · decide
  split
  · decide
  split
  · decide
  split
  · decide
  split
  · decide
  split
  · rename_i h; intro hd; rw [← List.mem_singleton.mp hd] at h; revert h; decide
  split
  · exact hu _
  · intro hd
    rcases List.mem_append.mp hd with hd | hd
    · exact hu _ hd
    · exact hu _ hd

/-- A piece at level `d` that closes what it opens, is laid out and begins with ink. -/
structure Block (d : ℕ) (t : List Char) : Prop where
  balanced : Balanced t
  laid : Laid d t
  inked : Inked t

/-- Further items: they may be missing. -/
structure Rest (d : ℕ) (t : List Char) : Prop where
  balanced : Balanced t
  laid : Laid d t

theorem block_num {d : ℕ} {t : List Char} (h : (∀ c ∈ t, c ∈ numChars) ∧ t ≠ []) : Block d t := by
  refine ⟨Balanced.neutral (fun c hc => ?_), Laid.flat (fun hc => ?_), ?_⟩
  · have : ∀ c ∈ numChars, Neutral c := by unfold Neutral; decide
    exact this c (h.1 c hc)
  · exact absurd (h.1 _ hc) (by decide)
  · cases t with
    | nil => exact absurd rfl h.2
    | cons c t =>
      have : ∀ c ∈ numChars, c ≠ ' ' ∧ c ≠ '}' ∧ c ≠ ']' := by decide
      exact ⟨c, rfl, this c (h.1 c (by simp))⟩

theorem block_string (d : ℕ) (s : String) : Block d (dumpString s) := by
  refine ⟨string_balanced (dumpString_text s), Laid.flat (fun h => ?_), ⟨'"', rfl, by decide, by decide, by decide⟩⟩
  unfold dumpString at h
  rcases List.mem_cons.mp h with h | h
  · revert h; decide
  · rcases List.mem_append.mp h with h | h
    · obtain ⟨c, _, hc⟩ := List.mem_flatMap.mp h
      exact escapeChar_noLf c hc
    · revert h; decide

theorem block_key (d : ℕ) (k : String) {t : List Char} (h : Block d t) : Block d (dumpString k ++ ([':', ' '] ++ t)) := by
  have hk := block_string d k
  have hc : Balanced [':', ' '] := Balanced.neutral (by unfold Neutral; decide)
  refine ⟨hk.balanced.append (hc.append h.balanced), hk.laid.append hk.balanced ((Laid.flat (by decide)).append hc h.laid), ?_⟩
  exact ⟨'"', rfl, by decide, by decide, by decide⟩

theorem block_item {d : ℕ} {t r : List Char} (h : Block d t) (hr : Rest d r) :
    Balanced (newlineIndent d ++ (t ++ r)) ∧ Laid d (newlineIndent d ++ (t ++ r)) := by
  refine ⟨(newlineIndent_balanced d).append (h.balanced.append hr.balanced), Laid.next ?_ (h.laid.append h.balanced hr.laid)⟩
  obtain ⟨c, hc, h1⟩ := h.inked
  refine ⟨c, ?_, h1⟩
  rw [List.head?_append_of_ne_nil]
  · exact hc
  · rintro rfl; cases hc

theorem rest_item {d : ℕ} {t r : List Char} (h : Block d t) (hr : Rest d r) : Rest d (',' :: (newlineIndent d ++ (t ++ r))) := by
  obtain ⟨hb, hl⟩ := block_item h hr
  have hc : Balanced [','] := Balanced.neutral (by unfold Neutral; decide)
  exact ⟨hc.append hb, (Laid.flat (t := [',']) (by decide)).append hc hl⟩

theorem rest_nil (d : ℕ) : Rest d [] := ⟨Balanced.nil, Laid.flat (by simp)⟩

theorem block_bracket {d : ℕ} {t r : List Char} (o c : Char) (ho : (o = '{' ∧ c = '}') ∨ (o = '[' ∧ c = ']'))
    (h : Block (d + 1) t) (hr : Rest (d + 1) r) :
    Block d (o :: (newlineIndent (d + 1) ++ (t ++ r) ++ newlineIndent d ++ [c])) := by
  obtain ⟨hb, hl⟩ := block_item h hr
  refine ⟨(bracket_balanced (hb.append (newlineIndent_balanced d)) o c ho).1, Laid.opened o (by tauto) ?_, ?_⟩
  · rw [List.append_assoc]
    exact hl.append hb (Laid.close c (by tauto))
  · rcases ho with ⟨rfl, _⟩ | ⟨rfl, _⟩ <;> exact ⟨_, rfl, by decide, by decide, by decide⟩

theorem block_word {d : ℕ} {t : List Char} (h : t = ['[', ']'] ∨ t = ['{', '}']) : Block d t := by
  rcases h with rfl | rfl
  · exact ⟨(bracket_balanced Balanced.nil _ _ (Or.inr ⟨rfl, rfl⟩)).1, Laid.flat (by decide), '[', rfl, by decide, by decide, by decide⟩
  · exact ⟨(bracket_balanced Balanced.nil _ _ (Or.inl ⟨rfl, rfl⟩)).1, Laid.flat (by decide), '{', rfl, by decide, by decide, by decide⟩

theorem block_const {d : ℕ} {t : List Char} (h : t = "null".toList ∨ t = "true".toList ∨ t = "false".toList) : Block d t := by
  rcases h with rfl | rfl | rfl
  · exact ⟨Balanced.neutral (by unfold Neutral; decide), Laid.flat (by decide), 'n', rfl, by decide, by decide, by decide⟩
  · exact ⟨Balanced.neutral (by unfold Neutral; decide), Laid.flat (by decide), 't', rfl, by decide, by decide, by decide⟩
  · exact ⟨Balanced.neutral (by unfold Neutral; decide), Laid.flat (by decide), 'f', rfl, by decide, by decide, by decide⟩

mutual
theorem dumpValue_block (sn : α → List Char) (level : ℕ) : (j : Json α) →
    NumsAll (fun x => RealText (sn x) ∨ FloatConstant (sn x)) j → Block level (dumpValue sn level j)
  | .null, _ => by rw [dumpValue]; exact block_const (Or.inl rfl)
  | .bool true, _ => by rw [dumpValue]; exact block_const (Or.inr (Or.inl rfl))
  | .bool false, _ => by rw [dumpValue]; exact block_const (Or.inr (Or.inr rfl))
  | .int n, _ => by rw [dumpValue]; exact block_num (int_num (dumpInt_text n))
  | .num x, h => by rw [NumsAll] at h; rw [dumpValue]; exact block_num (real_num h)
  | .str s, _ => by rw [dumpValue]; exact block_string level s
  | .arr [], _ => by rw [dumpValue]; exact block_word (Or.inl rfl)
  | .arr (v :: vs), hn => by
    rw [NumsAll, NumsElements] at hn
    rw [dumpValue]
    have := block_bracket '[' ']' (Or.inr ⟨rfl, rfl⟩) (dumpValue_block sn (level + 1) v hn.1) (dumpElements_rest sn (level + 1) vs hn.2)
    rwa [← List.append_assoc] at this
  | .obj [], _ => by rw [dumpValue]; exact block_word (Or.inr rfl)
  | .obj ((k, v) :: ps), hn => by
    rw [NumsAll, NumsMembers] at hn
    rw [dumpValue]
    have := block_bracket '{' '}' (Or.inl ⟨rfl, rfl⟩) (block_key (level + 1) k (dumpValue_block sn (level + 1) v hn.1))
      (dumpMembers_rest sn (level + 1) ps hn.2)
    simp only [← List.append_assoc] at this
    exact this

theorem dumpElements_rest (sn : α → List Char) (level : ℕ) : (vs : List (Json α)) →
    NumsElements (fun x => RealText (sn x) ∨ FloatConstant (sn x)) vs → Rest level (dumpElements sn level vs)
  | [], _ => by rw [dumpElements]; exact rest_nil level
  | v :: vs, hn => by
    rw [NumsElements] at hn
    rw [dumpElements]
    have := rest_item (dumpValue_block sn level v hn.1) (dumpElements_rest sn level vs hn.2)
    rwa [← List.append_assoc] at this

theorem dumpMembers_rest (sn : α → List Char) (level : ℕ) : (ps : List (String × Json α)) →
    NumsMembers (fun x => RealText (sn x) ∨ FloatConstant (sn x)) ps → Rest level (dumpMembers sn level ps)
  | [], _ => by rw [dumpMembers]; exact rest_nil level
  | (k, v) :: ps, hn => by
    rw [NumsMembers] at hn
    rw [dumpMembers]
    have := rest_item (block_key level k (dumpValue_block sn level v hn.1)) (dumpMembers_rest sn level ps hn.2)
    simp only [← List.append_assoc] at this
    exact this
end

end PyFlowGo
