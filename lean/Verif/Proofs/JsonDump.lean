import Verif.Proofs.JsonGrammar
import Verif.Proofs.TextLemmas
/-
  What `json.dump` writes is a text of the value, in printable ASCII.
-/
set_option linter.unusedSectionVars false
namespace PyFlowGo
open Spec
variable {α : Type}

theorem hexChar_digit {n : ℕ} (h : n < 16) : HexDigit (hexChar n) n := by
  unfold HexDigit hexChar
  interval_cases n <;> decide

theorem uEscape_unit {n : ℕ} (h : n < 65536) : UnitText (uEscape n) n := by
  refine ⟨_, _, _, _, n / 4096 % 16, n / 256 % 16, n / 16 % 16, n % 16, rfl, hexChar_digit (by omega), hexChar_digit (by omega),
    hexChar_digit (by omega), hexChar_digit (by omega), by omega⟩

theorem char_lt (c : Char) : c.toNat < 0x110000 := by
  have := c.valid
  unfold UInt32.isValidChar Nat.isValidChar at this
  show c.val.toNat < 0x110000
  omega

theorem escapeChar_text (c : Char) : CharText (escapeChar c) c := by
  have short : ∀ e, ShortEscape e c → CharText ['\\', e] c := fun e h => .short e c h
  unfold escapeChar
  split
  · rename_i h; subst h; exact short _ (by unfold ShortEscape; decide)
  split
  · rename_i h; subst h; exact short _ (by unfold ShortEscape; decide)
  split
  · rename_i h; subst h; exact short _ (by unfold ShortEscape; decide)
  split
  · rename_i h; subst h; exact short _ (by unfold ShortEscape; decide)
  split
  · rename_i h; subst h; exact short _ (by unfold ShortEscape; decide)
  split
  · rename_i h; subst h; exact short _ (by unfold ShortEscape; decide)
  split
  · rename_i h; subst h; exact short _ (by unfold ShortEscape; decide)
  split
  · rename_i h1 h2 _ _ _ _ _ h; exact .plain c h2 h1 h.1
  split
  · rename_i h; exact .unit _ _ (uEscape_unit h)
  · have hl := char_lt c
    rename_i h
    refine .pair _ _ ((c.toNat - 0x10000) / 1024 % 1024) ((c.toNat - 0x10000) % 1024) c (uEscape_unit (by omega))
      (uEscape_unit (by omega)) (by omega) (by omega) (by omega)

theorem chars_flatMap (s : List Char) : Chars (s.flatMap escapeChar) s := by
  induction s with
  | nil => exact .nil
  | cons c s ih => rw [List.flatMap_cons]; exact .cons _ _ _ _ (escapeChar_text c) ih

theorem dumpString_text (s : String) : StringText (dumpString s) s := ⟨_, rfl, chars_flatMap _⟩

theorem digitChar {n : ℕ} (h : n < 10) : IsDigit (Char.ofNat (48 + n)) ∧ (Char.ofNat (48 + n)).toNat - 48 = n ∧
    (n ≠ 0 → Char.ofNat (48 + n) ≠ '0') := by
  unfold IsDigit
  interval_cases n <;> decide

theorem decimal_append (t : List Char) (c : Char) : decimal (t ++ [c]) = decimal t * 10 + (c.toNat - 48) := by
  unfold decimal
  simp [Nat.ofDigits_cons]
  omega

theorem natDigits_spec (n : ℕ) : decimal (natDigits n) = n ∧ (∀ d ∈ natDigits n, IsDigit d) ∧
    (n ≠ 0 → ∃ c t, natDigits n = c :: t ∧ c ≠ '0') := by
  induction n using Nat.strong_induction_on with
  | _ n ih =>
    unfold natDigits
    by_cases h : n < 10
    · rw [if_pos h]
      obtain ⟨h1, h2, h3⟩ := digitChar h
      refine ⟨by simp [decimal, h2], by simpa using h1, fun h0 => ⟨_, _, rfl, h3 h0⟩⟩
    · rw [if_neg h]
      obtain ⟨h1, h2, h3⟩ := digitChar (n := n % 10) (by omega)
      obtain ⟨i1, i2, i3⟩ := ih (n / 10) (by omega)
      refine ⟨?_, ?_, fun _ => ?_⟩
      · rw [decimal_append, i1, h2]; omega
      · intro d hd
        rcases List.mem_append.mp hd with hd | hd
        · exact i2 d hd
        · rw [List.mem_singleton.mp hd]; exact h1
      · obtain ⟨c, t, e, hc⟩ := i3 (by omega)
        exact ⟨c, t ++ [Char.ofNat (48 + n % 10)], by rw [e]; rfl, hc⟩

theorem natDigits_intPart (n : ℕ) : IntPart (natDigits n) := by
  by_cases h : n = 0
  · subst h; rw [natDigits]; exact .zero
  · obtain ⟨_, h2, h3⟩ := natDigits_spec n
    obtain ⟨c, t, e, hc⟩ := h3 h
    rw [e] at h2 ⊢
    exact .pos c t hc (h2 c (by simp)) fun d hd => h2 d (by simp [hd])

theorem dumpInt_text (n : ℤ) : IntText (dumpInt n) n := by
  cases n with
  | ofNat n =>
    have := IntText.pos _ (natDigits_intPart n)
    rwa [(natDigits_spec n).1] at this
  | negSucc n =>
    have := IntText.neg _ (natDigits_intPart (n + 1))
    rwa [(natDigits_spec (n + 1)).1] at this

theorem newlineIndent_ws (n : ℕ) : Ws (newlineIndent n) := by
  intro c hc
  unfold newlineIndent at hc
  rcases List.mem_cons.mp hc with rfl | hc
  · simp
  · rw [List.eq_of_mem_replicate hc]; simp

mutual
theorem dumpValue_text (pf : List Char → Option α) (sn : α → List Char) (level : ℕ) : (j : Json α) → DistinctKeys j →
    NumsAll (Readable pf sn) j → ValueText pf (dumpValue sn level j) j
  | .null, _, _ => by rw [dumpValue]; exact .null
  | .bool true, _, _ => by rw [dumpValue]; exact .true
  | .bool false, _, _ => by rw [dumpValue]; exact .false
  | .int n, _, _ => by rw [dumpValue]; exact .int _ _ (dumpInt_text n)
  | .num x, _, h => by
    rw [NumsAll] at h
    rw [dumpValue]
    exact .num _ _ h.1 h.2
  | .str s, _, _ => by rw [dumpValue]; exact .str _ _ (dumpString_text s)
  | .arr [], _, _ => by rw [dumpValue]; exact .emptyArr [] (by simp [Ws])
  | .arr (v :: vs), hd, hn => by
    rw [DistinctKeys, DistinctElements] at hd
    rw [NumsAll, NumsElements] at hn
    rw [dumpValue]
    exact .arr _ _ (dumpElements_text pf sn (level + 1) vs hd.2 hn.2 (newlineIndent (level + 1))
      (dumpValue sn (level + 1) v) (newlineIndent level) v (newlineIndent_ws _)
      (dumpValue_text pf sn (level + 1) v hd.1 hn.1) (newlineIndent_ws _))
  | .obj [], _, _ => by rw [dumpValue]; exact .emptyObj [] (by simp [Ws])
  | .obj ((k, v) :: ps), hd, hn => by
    rw [DistinctKeys, DistinctMembers] at hd
    rw [NumsAll, NumsMembers] at hn
    rw [dumpValue]
    exact .obj _ _ _ (dumpMembers_text pf sn (level + 1) ps hd.2.2 hn.2 (newlineIndent (level + 1))
      (dumpValue sn (level + 1) v) (newlineIndent level) k v (newlineIndent_ws _)
      (dumpValue_text pf sn (level + 1) v hd.2.1 hn.1) (newlineIndent_ws _)) (members_self hd.1)

theorem dumpElements_text (pf : List Char → Option α) (sn : α → List Char) (level : ℕ) : (vs : List (Json α)) →
    DistinctElements vs → NumsElements (Readable pf sn) vs → ∀ (w₁ t w₂ : List Char) (v : Json α), Ws w₁ → ValueText pf t v →
    Ws w₂ → ElementsText pf (w₁ ++ t ++ dumpElements sn level vs ++ w₂) (v :: vs)
  | [], _, _, w₁, t, w₂, v, h₁, h, h₂ => by
    rw [dumpElements, List.append_nil]
    exact .one _ _ _ _ h₁ h h₂
  | v' :: vs, hd, hn, w₁, t, w₂, v, h₁, h, h₂ => by
    rw [DistinctElements] at hd
    rw [NumsElements] at hn
    have := ElementsText.cons w₁ t [] _ v (v' :: vs) h₁ h (by simp [Ws])
      (dumpElements_text pf sn level vs hd.2 hn.2 (newlineIndent level) (dumpValue sn level v') w₂ v' (newlineIndent_ws _)
        (dumpValue_text pf sn level v' hd.1 hn.1) h₂)
    rw [dumpElements]
    simpa using this

theorem dumpMembers_text (pf : List Char → Option α) (sn : α → List Char) (level : ℕ) : (ps : List (String × Json α)) →
    DistinctMembers ps → NumsMembers (Readable pf sn) ps → ∀ (w₁ t w₂ : List Char) (k : String) (v : Json α), Ws w₁ →
    ValueText pf t v → Ws w₂ →
    MembersText pf (w₁ ++ dumpString k ++ [':', ' '] ++ t ++ dumpMembers sn level ps ++ w₂) ((k, v) :: ps)
  | [], _, _, w₁, t, w₂, k, v, h₁, h, h₂ => by
    have := MembersText.one w₁ _ [] [' '] t w₂ k v h₁ (dumpString_text k) (by simp [Ws]) (by simp [Ws]) h h₂
    rw [dumpMembers]
    simpa using this
  | (k', v') :: ps, hd, hn, w₁, t, w₂, k, v, h₁, h, h₂ => by
    rw [DistinctMembers] at hd
    rw [NumsMembers] at hn
    have := MembersText.cons w₁ _ [] [' '] t [] _ k v ((k', v') :: ps) h₁ (dumpString_text k) (by simp [Ws]) (by simp [Ws]) h
      (by simp [Ws]) (dumpMembers_text pf sn level ps hd.2 hn.2 (newlineIndent level) (dumpValue sn level v') w₂ k' v'
        (newlineIndent_ws _) (dumpValue_text pf sn level v' hd.1 hn.1) h₂)
    rw [dumpMembers]
    simpa using this
end

theorem digit_plain {c : Char} (h : IsDigit c) : Ascii c := by
  have := (isDec_iff c).mpr h
  unfold isDec at this
  rw [decide_eq_true_iff] at this
  exact Or.inr (by omega)

theorem intPart_digits {t : List Char} (h : IntPart t) : ∀ c ∈ t, IsDigit c := by
  cases h with
  | zero => intro c hc; rw [List.mem_singleton.mp hc]; unfold IsDigit; decide
  | pos c t h0 hc ht =>
    intro d hd
    rcases List.mem_cons.mp hd with rfl | hd
    · exact hc
    · exact ht d hd

theorem intText_plain {t : List Char} {n : ℤ} (h : IntText t n) : ∀ c ∈ t, Ascii c := by
  cases h with
  | pos t h => exact fun c hc => digit_plain (intPart_digits h c hc)
  | neg t h =>
    intro c hc
    rcases List.mem_cons.mp hc with rfl | hc
    · exact Or.inr (by decide)
    · exact digit_plain (intPart_digits h c hc)

theorem realText_plain {t : List Char} (h : RealText t ∨ FloatConstant t) : ∀ c ∈ t, Ascii c := by
  rcases h with ⟨i, n, f, e, rfl, hi, hf, he, _⟩ | h
  · intro c hc
    rcases List.mem_append.mp hc with hc | hc
    · rcases List.mem_append.mp hc with hc | hc
      · exact intText_plain hi c hc
      · rcases hf with rfl | ⟨d, t, rfl, hd, ht⟩
        · simp at hc
        · rcases List.mem_cons.mp hc with rfl | hc
          · exact Or.inr (by decide)
          · rcases List.mem_cons.mp hc with rfl | hc
            · exact digit_plain hd
            · exact digit_plain (ht c hc)
    · rcases he with rfl | ⟨x, s, d, t, rfl, hx, hs, hd, ht⟩
      · simp at hc
      · rcases List.mem_cons.mp hc with rfl | hc
        · rcases hx with rfl | rfl <;> exact Or.inr (by decide)
        · rcases List.mem_append.mp hc with hc | hc
          · rcases hs with rfl | rfl | rfl
            · simp at hc
            · rw [List.mem_singleton.mp hc]; exact Or.inr (by decide)
            · rw [List.mem_singleton.mp hc]; exact Or.inr (by decide)
          · rcases List.mem_cons.mp hc with rfl | hc
            · exact digit_plain hd
            · exact digit_plain (ht c hc)
  · have : ∀ c ∈ t, 32 ≤ c.toNat ∧ c.toNat ≤ 126 := by
      rcases h with rfl | rfl | rfl <;> decide
    exact fun c hc => Or.inr (this c hc)

theorem hexChar_plain {n : ℕ} (h : n < 16) : Ascii (hexChar n) := by
  refine Or.inr ?_
  unfold hexChar
  interval_cases n <;> decide

theorem escapeChar_plain (c : Char) : ∀ d ∈ escapeChar c, Ascii d := by
  have hu : ∀ n, ∀ d ∈ uEscape n, Ascii d := by
    intro n d hd
    unfold uEscape at hd
    simp only [List.mem_cons, List.not_mem_nil, or_false] at hd
    rcases hd with rfl | rfl | rfl | rfl | rfl | rfl
    · exact Or.inr (by decide)
    · exact Or.inr (by decide)
    all_goals exact hexChar_plain (by omega)
  have short : ∀ e : Char, (32 ≤ e.toNat ∧ e.toNat ≤ 126) → ∀ d ∈ ['\\', e], Ascii d := by
    intro e he d hd
    simp only [List.mem_cons, List.not_mem_nil, or_false] at hd
    rcases hd with rfl | rfl
    · exact Or.inr (by decide)
    · exact Or.inr he
  unfold escapeChar
  split
  · exact short _ (by decide)
  split
  · exact short _ (by decide)
  split
  · exact short _ (by decide)
  split
  · exact short _ (by decide)
  split
  · exact short _ (by decide)
  split
  · exact short _ (by decide)
  split
  · exact short _ (by decide)
  split
  · rename_i h; intro d hd; rw [List.mem_singleton.mp hd]; exact Or.inr h
  split
  · exact hu _
  · intro d hd
    rcases List.mem_append.mp hd with hd | hd
    · exact hu _ d hd
    · exact hu _ d hd

theorem dumpString_plain (s : String) : ∀ c ∈ dumpString s, Ascii c := by
  intro c hc
  unfold dumpString at hc
  rcases List.mem_cons.mp hc with rfl | hc
  · exact Or.inr (by decide)
  · rcases List.mem_append.mp hc with hc | hc
    · obtain ⟨d, _, hd⟩ := List.mem_flatMap.mp hc
      exact escapeChar_plain d c hd
    · rw [List.mem_singleton.mp hc]; exact Or.inr (by decide)

theorem newlineIndent_plain (n : ℕ) : ∀ c ∈ newlineIndent n, Ascii c := by
  intro c hc
  unfold newlineIndent at hc
  rcases List.mem_cons.mp hc with rfl | hc
  · exact Or.inl rfl
  · rw [List.eq_of_mem_replicate hc]; exact Or.inr (by decide)

/-- All characters of a text are plain. -/
def AllAscii (t : List Char) : Prop := ∀ c ∈ t, Ascii c
theorem AllAscii.append {a b : List Char} (ha : AllAscii a) (hb : AllAscii b) : AllAscii (a ++ b) :=
  fun c hc => (List.mem_append.mp hc).elim (ha c) (hb c)
theorem AllAscii.cons {c : Char} {b : List Char} (hc : 32 ≤ c.toNat ∧ c.toNat ≤ 126) (hb : AllAscii b) : AllAscii (c :: b) :=
  fun d hd => (List.mem_cons.mp hd).elim (fun h => h ▸ Or.inr hc) (hb d)
theorem AllAscii.nil : AllAscii [] := fun _ h => by simp at h

mutual
theorem dumpValue_plain (sn : α → List Char) (level : ℕ) : (j : Json α) →
    NumsAll (fun x => RealText (sn x) ∨ FloatConstant (sn x)) j → AllAscii (dumpValue sn level j)
  | .null, _ => by rw [dumpValue]; unfold AllAscii Ascii; decide
  | .bool true, _ => by rw [dumpValue]; unfold AllAscii Ascii; decide
  | .bool false, _ => by rw [dumpValue]; unfold AllAscii Ascii; decide
  | .int n, _ => by rw [dumpValue]; exact intText_plain (dumpInt_text n)
  | .num x, h => by rw [NumsAll] at h; rw [dumpValue]; exact realText_plain h
  | .str s, _ => by rw [dumpValue]; exact dumpString_plain s
  | .arr [], _ => by rw [dumpValue]; exact .cons (by decide) (.cons (by decide) .nil)
  | .arr (v :: vs), hn => by
    rw [NumsAll, NumsElements] at hn
    rw [dumpValue]
    exact .cons (by decide) (.append (.append (.append (.append (newlineIndent_plain _) (dumpValue_plain sn _ v hn.1))
      (dumpElements_plain sn _ vs hn.2)) (newlineIndent_plain _)) (.cons (by decide) .nil))
  | .obj [], _ => by rw [dumpValue]; exact .cons (by decide) (.cons (by decide) .nil)
  | .obj ((k, v) :: ps), hn => by
    rw [NumsAll, NumsMembers] at hn
    rw [dumpValue]
    exact .cons (by decide) (.append (.append (.append (.append (.append (.append (newlineIndent_plain _) (dumpString_plain k))
      (.cons (by decide) (.cons (by decide) .nil))) (dumpValue_plain sn _ v hn.1))
      (dumpMembers_plain sn _ ps hn.2)) (newlineIndent_plain _)) (.cons (by decide) .nil))

theorem dumpElements_plain (sn : α → List Char) (level : ℕ) : (vs : List (Json α)) →
    NumsElements (fun x => RealText (sn x) ∨ FloatConstant (sn x)) vs → AllAscii (dumpElements sn level vs)
  | [], _ => by rw [dumpElements]; exact .nil
  | v :: vs, hn => by
    rw [NumsElements] at hn
    rw [dumpElements]
    exact .cons (by decide) (.append (.append (newlineIndent_plain _) (dumpValue_plain sn _ v hn.1))
      (dumpElements_plain sn _ vs hn.2))

theorem dumpMembers_plain (sn : α → List Char) (level : ℕ) : (ps : List (String × Json α)) →
    NumsMembers (fun x => RealText (sn x) ∨ FloatConstant (sn x)) ps → AllAscii (dumpMembers sn level ps)
  | [], _ => by rw [dumpMembers]; exact .nil
  | (k, v) :: ps, hn => by
    rw [NumsMembers] at hn
    rw [dumpMembers]
    exact .cons (by decide) (.append (.append (.append (.append (newlineIndent_plain _) (dumpString_plain k))
      (.cons (by decide) (.cons (by decide) .nil))) (dumpValue_plain sn _ v hn.1)) (dumpMembers_plain sn _ ps hn.2))
end

mutual
theorem NumsAll.mono {P Q : α → Prop} (h : ∀ x, P x → Q x) : (j : Json α) → NumsAll P j → NumsAll Q j
  | .num x, hp => by rw [NumsAll] at hp ⊢; exact h x hp
  | .arr l, hp => by rw [NumsAll] at hp ⊢; exact NumsElements.mono h l hp
  | .obj l, hp => by rw [NumsAll] at hp ⊢; exact NumsMembers.mono h l hp
  | .null, _ => by simp [NumsAll]
  | .bool _, _ => by simp [NumsAll]
  | .int _, _ => by simp [NumsAll]
  | .str _, _ => by simp [NumsAll]
theorem NumsElements.mono {P Q : α → Prop} (h : ∀ x, P x → Q x) : (l : List (Json α)) → NumsElements P l → NumsElements Q l
  | [], _ => by simp [NumsElements]
  | v :: vs, hp => by rw [NumsElements] at hp ⊢; exact ⟨NumsAll.mono h v hp.1, NumsElements.mono h vs hp.2⟩
theorem NumsMembers.mono {P Q : α → Prop} (h : ∀ x, P x → Q x) : (l : List (String × Json α)) → NumsMembers P l → NumsMembers Q l
  | [], _ => by simp [NumsMembers]
  | (k, v) :: vs, hp => by rw [NumsMembers] at hp ⊢; exact ⟨NumsAll.mono h v hp.1, NumsMembers.mono h vs hp.2⟩
end

end PyFlowGo
