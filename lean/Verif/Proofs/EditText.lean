import Verif.Model.EditText
import Verif.Spec.EditText
import Verif.Props.JsonText
/-
  Python's `repr` against the JSON scanner.
-/
set_option linter.unusedSectionVars false
namespace PyFlowGo
open Spec
variable {α : Type}

theorem toNat_inj_ne {c d : Char} (h : c ≠ d) : c.toNat ≠ d.toNat := by
  intro e; exact h (Char.ext (UInt32.toNat_inj.mp e))

/-- A character that is not `SameInJson` (nor a quote) is written with `\x` or `\U`. -/
theorem reprChar_good (pr : Char → Bool) (c : Char) (hq : c ≠ '"') (h : SameInJson pr c) :
    CharText (reprChar pr '"' c) c := by
  unfold reprChar
  split
  · rename_i h1
    rcases h1 with h1 | h1
    · exact absurd h1 hq
    · subst h1; exact .short _ _ (by simp [ShortEscape])
  · rename_i h1
    push Not at h1
    split
    · rename_i h2; subst h2; exact .short _ _ (by simp [ShortEscape])
    · split
      · rename_i h2; subst h2; exact .short _ _ (by simp [ShortEscape])
      · split
        · rename_i h2; subst h2; exact .short _ _ (by simp [ShortEscape])
        · rename_i a b d
          rcases h with h | h | h | ⟨h, h', h''⟩
          · exact absurd h a
          · exact absurd h b
          · exact absurd h d
          · rw [if_neg (by omega)]
            split
            · exact .plain c hq h1.2 h
            · rename_i h3
              push Not at h3
              rcases h'' with h'' | h'' | h''
              · omega
              · exact absurd h'' (by simpa using h3.2)
              · rw [if_neg (by omega), if_pos (by omega)]
                exact .unit _ _ (uEscape_unit (by omega))

theorem reprChar_bad (pr : Char → Bool) (c : Char) (hq : c ≠ '"') (h : ¬ SameInJson pr c) :
    ∃ e r, reprChar pr '"' c = '\\' :: e :: r ∧ (e = 'x' ∨ e = 'U') := by
  unfold SameInJson at h
  push Not at h
  obtain ⟨h1, h2, h3, h4⟩ := h
  have h5 : c ≠ '\\' := by
    rintro rfl
    have := (h4 (by decide) (by decide)).1
    exact absurd this (by decide)
  unfold reprChar
  rw [if_neg (by simp [hq, h5]), if_neg h1, if_neg h2, if_neg h3]
  split
  · exact ⟨'x', _, rfl, Or.inl rfl⟩
  · rename_i h6
    push Not at h6
    obtain ⟨h7, h8, h9⟩ := h4 h6.1 h6.2
    rw [if_neg (by rintro (h | h); · omega
                   · exact absurd h h8)]
    split
    · exact ⟨'x', _, rfl, Or.inl rfl⟩
    · rw [if_neg (by omega)]
      exact ⟨'U', _, rfl, Or.inr rfl⟩

theorem chars_repr (pr : Char → Bool) (s : List Char) (hq : '"' ∉ s) (h : ∀ c ∈ s, SameInJson pr c) :
    Chars (s.flatMap (reprChar pr '"')) s := by
  induction s with
  | nil => exact .nil
  | cons c s ih =>
    rw [List.flatMap_cons]
    simp only [List.mem_cons, not_or] at hq
    exact .cons _ _ _ _ (reprChar_good pr c (Ne.symm hq.1) (h c (by simp))) (ih hq.2 fun d hd => h d (by simp [hd]))

theorem scanString_bad (pr : Char → Bool) (s : List Char) (hq : '"' ∉ s) (h : ¬ ∀ c ∈ s, SameInJson pr c) :
    ∀ (n : ℕ) (r : List Char), scanString n (s.flatMap (reprChar pr '"') ++ r) = none := by
  induction s with
  | nil => simp at h
  | cons c s ih =>
    intro n r
    simp only [List.mem_cons, not_or] at hq
    cases n with
    | zero => rfl
    | succ n =>
      rw [List.flatMap_cons, List.append_assoc]
      by_cases hc : SameInJson pr c
      · have ht := reprChar_good pr c (Ne.symm hq.1) hc
        obtain ⟨a, t', e, ha⟩ := charText_head ht
        have hs := scanChar_complete ht (s.flatMap (reprChar pr '"') ++ r)
        rw [e] at hs ⊢
        rw [List.cons_append] at hs ⊢
        unfold scanString
        split
        · rename_i heq
          simp only [List.cons.injEq] at heq
          exact absurd heq.1 ha
        · rw [hs]
          dsimp only
          rw [ih hq.2 (fun h' => h (by simpa [hc] using h')) n r]
      · obtain ⟨e, t, he, hx⟩ := reprChar_bad pr c (Ne.symm hq.1) hc
        rw [he, List.cons_append, List.cons_append]
        unfold scanString
        have : scanChar ('\\' :: e :: (t ++ (s.flatMap (reprChar pr '"') ++ r))) = none := by
          unfold scanChar
          rcases hx with rfl | rfl
          · simp [backslash]
          · simp [backslash]
        split
        · rename_i heq
          simp at heq
        · rw [this]

theorem scanAtom_word_none (pf : List Char → Option α) (c d : Char) (r : List Char)
    (h : (c, d) ∈ [('N', 'o'), ('n', 'a'), ('-', 'i')]) : scanAtom pf (c :: d :: r) = none := by
  simp only [List.mem_cons, Prod.mk.injEq, List.not_mem_nil, or_false] at h
  rcases h with ⟨rfl, rfl⟩ | ⟨rfl, rfl⟩ | ⟨rfl, rfl⟩ <;>
    simp [scanAtom, scanWord, scanInt, scanInt.digits, List.isPrefixOf, isDec]

theorem scanAtom_head_none (pf : List Char → Option α) (c : Char) (r : List Char)
    (h : c ∈ ['T', 'F', 'i', '\'', 'O']) : scanAtom pf (c :: r) = none := by
  simp only [List.mem_cons, List.not_mem_nil, or_false] at h
  rcases h with rfl | rfl | rfl | rfl | rfl <;>
    simp [scanAtom, scanWord, scanInt, scanInt.digits, List.isPrefixOf, isDec]

theorem scanValue_head_none (pf : List Char → Option α) (n : ℕ) (c : Char) (r : List Char)
    (h : c ∈ ['T', 'F', 'i', '\'', 'O']) : scanValue pf n (c :: r) = none := by
  cases n with
  | zero => rfl
  | succ n =>
    rw [scanValue_atom pf n r (by rintro rfl; simp at h) (by rintro rfl; simp at h) (by rintro rfl; simp at h)]
    exact scanAtom_head_none pf c r h

theorem scanValue_word_none (pf : List Char → Option α) (n : ℕ) (c d : Char) (r : List Char)
    (h : (c, d) ∈ [('N', 'o'), ('n', 'a'), ('-', 'i')]) : scanValue pf n (c :: d :: r) = none := by
  cases n with
  | zero => rfl
  | succ n =>
    rw [scanValue_atom pf n (d :: r) (by rintro rfl; simp at h) (by rintro rfl; simp at h) (by rintro rfl; simp at h)]
    exact scanAtom_word_none pf c d r h

theorem reprQuote_same {pr : Char → Bool} {s : List Char} (h : SameText pr s) : reprQuote s = '"' := by
  unfold reprQuote
  rw [if_pos ⟨h.1, h.2.1⟩]

mutual
theorem pyRepr_text (pf : List Char → Option α) (ss : α → List Char) (pr : Char → Bool)
    (od : List (String × Json α) → List Char) : (v : Json α) → ElementKept pf ss pr v → ValueText pf (pyRepr ss pr od v) v
  | .null, h => by rw [ElementKept] at h; exact h.elim
  | .bool _, h => by rw [ElementKept] at h; exact h.elim
  | .obj _, h => by rw [ElementKept] at h; exact h.elim
  | .int n, _ => by rw [pyRepr]; exact .int _ _ (dumpInt_text n)
  | .num x, h => by rw [ElementKept] at h; rw [pyRepr]; exact .num _ _ (Or.inl h.1) h.2
  | .str s, h => by
    rw [ElementKept] at h
    have hq := reprQuote_same h
    rw [pyRepr, reprText, hq]
    exact .str _ _ ⟨_, rfl, chars_repr pr _ h.2.1 h.2.2⟩
  | .arr [], _ => by rw [pyRepr]; exact .emptyArr [] (by simp [Ws])
  | .arr (v :: vs), h => by
    rw [ElementKept, ElementsKept] at h
    rw [pyRepr]
    have := pyReprs_text pf ss pr od vs h.2 [] (pyRepr ss pr od v) v (by simp [Ws]) (pyRepr_text pf ss pr od v h.1)
    exact .arr _ _ (by simpa using this)
theorem pyReprs_text (pf : List Char → Option α) (ss : α → List Char) (pr : Char → Bool)
    (od : List (String × Json α) → List Char) : (vs : List (Json α)) → ElementsKept pf ss pr vs →
    ∀ (w t : List Char) (v : Json α), Ws w → ValueText pf t v → ElementsText pf (w ++ t ++ pyReprs ss pr od vs) (v :: vs)
  | [], _, w, t, v, hw, h => by
    rw [pyReprs]
    exact .one _ _ [] _ hw h (by simp [Ws])
  | v' :: vs, hk, w, t, v, hw, h => by
    rw [ElementsKept] at hk
    have := ElementsText.cons w t [] _ v (v' :: vs) hw h (by simp [Ws])
      (pyReprs_text pf ss pr od vs hk.2 [' '] (pyRepr ss pr od v') v' (by simp [Ws]) (pyRepr_text pf ss pr od v' hk.1))
    rw [pyReprs]
    simpa using this
end

theorem intText_dump_head (n : ℤ) : ∃ c s, dumpInt n = c :: s ∧ (c = '-' ∨ IsDigit c) := intText_head (dumpInt_text n)

theorem pyRepr_head (pf : List Char → Option α) (ss : α → List Char) (pr : Char → Bool) (od : List (String × Json α) → List Char)
    (hss : FloatFormat pf ss) (v : Json α) : ∃ c s, pyRepr ss pr od v = c :: s ∧ isJsonWs c = false ∧ c ≠ ']' := by
  have hd : ∀ c, (c = '-' ∨ IsDigit c) → isJsonWs c = false ∧ c ≠ ']' := fun c h => by
    have := digit_head h
    refine ⟨this.1, ?_⟩
    rintro rfl
    revert h; unfold IsDigit; decide
  cases v with
  | null => exact ⟨_, _, by rw [pyRepr], by decide, by decide⟩
  | bool b => cases b <;> exact ⟨_, _, by rw [pyRepr], by decide, by decide⟩
  | int n =>
    obtain ⟨c, s, e, h⟩ := intText_dump_head n
    exact ⟨c, s, by rw [pyRepr]; exact e, hd c h⟩
  | num x =>
    rw [pyRepr]
    rcases hss x with h | h | h | h
    · obtain ⟨c, s, e, h⟩ := realText_head h.1
      exact ⟨c, s, e, hd c h⟩
    all_goals exact ⟨_, _, h, by decide, by decide⟩
  | str s =>
    rw [pyRepr, reprText]
    refine ⟨_, _, rfl, ?_⟩
    unfold reprQuote
    split <;> decide
  | arr l => cases l <;> exact ⟨_, _, by rw [pyRepr], by decide, by decide⟩
  | obj l => exact ⟨_, _, by rw [pyRepr]; rfl, by decide, by decide⟩

mutual
/-- The `repr` of a value that is not kept is not JSON. -/
theorem pyRepr_refused (pf : List Char → Option α) (ss : α → List Char) (pr : Char → Bool)
    (od : List (String × Json α) → List Char) (hss : FloatFormat pf ss) : (v : Json α) → ¬ ElementKept pf ss pr v →
    ∀ (n : ℕ) (r : List Char), 2 * (pyRepr ss pr od v).length ≤ n → scanValue pf n (pyRepr ss pr od v ++ r) = none
  | .null, _, n, r, _ => by rw [pyRepr]; exact scanValue_word_none pf n _ _ _ (by simp)
  | .bool true, _, n, r, _ => by rw [pyRepr]; exact scanValue_head_none pf n _ _ (by simp)
  | .bool false, _, n, r, _ => by rw [pyRepr]; exact scanValue_head_none pf n _ _ (by simp)
  | .int _, h, _, _, _ => by rw [ElementKept] at h; exact absurd trivial h
  | .num x, h, n, r, _ => by
    rw [ElementKept] at h
    rw [pyRepr]
    rcases hss x with h' | h' | h' | h'
    · exact absurd h' h
    · rw [h']; exact scanValue_word_none pf n _ _ _ (by simp)
    · rw [h']; exact scanValue_head_none pf n _ _ (by simp)
    · rw [h']; exact scanValue_word_none pf n _ _ _ (by simp)
  | .str s, h, n, r, _ => by
    rw [ElementKept] at h
    rw [pyRepr, reprText]
    by_cases hq : '\'' ∈ s.toList ∧ '"' ∉ s.toList
    · have e : reprQuote s.toList = '"' := by unfold reprQuote; rw [if_pos hq]
      rw [e]
      cases n with
      | zero => rfl
      | succ n =>
        rw [List.cons_append]
        unfold scanValue
        have := scanString_bad pr s.toList hq.2 (fun h' => h ⟨hq.1, hq.2, h'⟩)
        simp only [List.append_assoc]
        rw [this]
        rfl
    · have e : reprQuote s.toList = '\'' := by unfold reprQuote; rw [if_neg hq]
      rw [e]
      exact scanValue_head_none pf n _ _ (by simp)
  | .obj _, _, n, r, _ => by rw [pyRepr]; exact scanValue_head_none pf n _ _ (by simp)
  | .arr [], h, _, _, _ => by rw [ElementKept, ElementsKept] at h; exact absurd trivial h
  | .arr (v :: vs), h, n, r, hn => by
    rw [ElementKept, ElementsKept] at h
    rw [pyRepr] at hn ⊢
    obtain ⟨m, rfl⟩ : ∃ m, n = m + 1 := ⟨n - 1, by simp at hn; omega⟩
    obtain ⟨c, s, e, h1, h2⟩ := pyRepr_head pf ss pr od hss v
    have hsk : skipWs (pyRepr ss pr od v ++ (pyReprs ss pr od vs ++ (']' :: r))) =
        pyRepr ss pr od v ++ (pyReprs ss pr od vs ++ (']' :: r)) := by
      have := skipWs_append (w := []) (r := pyRepr ss pr od v ++ (pyReprs ss pr od vs ++ (']' :: r))) (by simp [Ws])
        (by rw [head_append e]; simpa using h1)
      simpa using this
    have e1 : ('[' :: (pyRepr ss pr od v ++ pyReprs ss pr od vs ++ [']'])) ++ r =
        '[' :: (pyRepr ss pr od v ++ (pyReprs ss pr od vs ++ (']' :: r))) := by simp
    rw [e1, scanValue_arr pf m (by
      intro r' hr'
      rw [hsk, e] at hr'
      simp only [List.cons_append, List.cons.injEq] at hr'
      exact h2 hr'.1), hsk]
    have hel : scanElements pf m (pyRepr ss pr od v ++ (pyReprs ss pr od vs ++ (']' :: r))) = none := by
      obtain ⟨m, rfl⟩ : ∃ k, m = k + 1 := ⟨m - 1, by simp [e] at hn; omega⟩
      unfold scanElements
      by_cases hv : ElementKept pf ss pr v
      · have hvs : ¬ ElementsKept pf ss pr vs := fun h' => h ⟨hv, h'⟩
        obtain ⟨v', vs', rfl⟩ : ∃ v' vs', vs = v' :: vs' := by
          cases vs with
          | nil => rw [ElementsKept] at hvs; exact absurd trivial hvs
          | cons v' vs' => exact ⟨v', vs', rfl⟩
        have hc := scanValue_complete pf (pyRepr_text pf ss pr od v hv) m (pyReprs ss pr od (v' :: vs') ++ (']' :: r))
          (by simp at hn; omega) (by rw [pyReprs]; exact numFollow_delim _ _ (by simp))
        rw [hc]
        dsimp only
        obtain ⟨r', e', hr'⟩ := pyReprs_refused pf ss pr od hss (v' :: vs') hvs m r (by simp at hn; omega)
        rw [e']
        have : skipWs (',' :: ' ' :: r') = ',' :: ' ' :: r' := by simp [skipWs, List.dropWhile, isJsonWs]
        rw [this]
        simp only
        rw [hr']
      · rw [pyRepr_refused pf ss pr od hss v hv m _ (by simp at hn; omega)]
    rw [hel]
    rfl
theorem pyReprs_refused (pf : List Char → Option α) (ss : α → List Char) (pr : Char → Bool)
    (od : List (String × Json α) → List Char) (hss : FloatFormat pf ss) : (vs : List (Json α)) → ¬ ElementsKept pf ss pr vs →
    ∀ (n : ℕ) (r : List Char), 2 * (pyReprs ss pr od vs).length + 1 ≤ n →
      ∃ r', pyReprs ss pr od vs ++ (']' :: r) = ',' :: ' ' :: r' ∧ scanElements pf n (skipWs (' ' :: r')) = none
  | [], h, _, _, _ => by rw [ElementsKept] at h; exact absurd trivial h
  | v :: vs, h, n, r, hn => by
    rw [ElementsKept] at h
    rw [pyReprs] at hn ⊢
    refine ⟨pyRepr ss pr od v ++ (pyReprs ss pr od vs ++ (']' :: r)), by simp, ?_⟩
    obtain ⟨c, s, e, h1, h2⟩ := pyRepr_head pf ss pr od hss v
    have hsk : skipWs (' ' :: (pyRepr ss pr od v ++ (pyReprs ss pr od vs ++ (']' :: r)))) =
        pyRepr ss pr od v ++ (pyReprs ss pr od vs ++ (']' :: r)) := by
      have := skipWs_append (w := [' ']) (r := pyRepr ss pr od v ++ (pyReprs ss pr od vs ++ (']' :: r))) (by simp [Ws])
        (by rw [head_append e]; simpa using h1)
      simpa using this
    rw [hsk]
    obtain ⟨m, rfl⟩ : ∃ k, n = k + 1 := ⟨n - 1, by simp at hn; omega⟩
    unfold scanElements
    by_cases hv : ElementKept pf ss pr v
    · have hvs : ¬ ElementsKept pf ss pr vs := fun h' => h ⟨hv, h'⟩
      obtain ⟨r', e', hr'⟩ := pyReprs_refused pf ss pr od hss vs hvs m r (by simp at hn; omega)
      have hc := scanValue_complete pf (pyRepr_text pf ss pr od v hv) m (pyReprs ss pr od vs ++ (']' :: r))
        (by simp at hn; omega) (by rw [e']; exact numFollow_delim _ _ (by simp))
      rw [hc]
      dsimp only
      rw [e']
      have : skipWs (',' :: ' ' :: r') = ',' :: ' ' :: r' := by simp [skipWs, List.dropWhile, isJsonWs]
      rw [this]
      simp only
      rw [hr']
    · rw [pyRepr_refused pf ss pr od hss v hv m _ (by simp at hn; omega)]
end

end PyFlowGo
