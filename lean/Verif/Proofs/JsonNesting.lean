import Verif.Spec.JsonLayout
import Verif.Proofs.JsonDump
/-
  Brackets in JSON texts.
-/
set_option linter.unusedSectionVars false
namespace PyFlowGo
open Spec
variable {α : Type}

/-- `nesting` from any start. -/
def nestFrom (s : ℕ × Place) (t : List Char) : ℕ × Place := t.foldl nestStep s

theorem nestFrom_append (s : ℕ × Place) (a b : List Char) : nestFrom s (a ++ b) = nestFrom (nestFrom s a) b := by
  unfold nestFrom; rw [List.foldl_append]

theorem nestFrom_cons (s : ℕ × Place) (c : Char) (t : List Char) : nestFrom s (c :: t) = nestFrom (nestStep s c) t := rfl

theorem prefix_append {β : Type} {p a b : List β} (h : p <+: a ++ b) : p <+: a ∨ ∃ q, p = a ++ q ∧ q <+: b := by
  rcases le_total p.length a.length with hl | hl
  · exact Or.inl (List.prefix_of_prefix_length_le h (List.prefix_append a b) hl)
  · obtain ⟨q, rfl⟩ := List.prefix_of_prefix_length_le (List.prefix_append a b) h hl
    exact Or.inr ⟨q, rfl, (List.prefix_append_right_inj a).mp h⟩

/-- The text closes what it opens, and nothing else. -/
structure Balanced (t : List Char) : Prop where
  whole : ∀ d, nestFrom (d, .outside) t = (d, .outside)
  part : ∀ d p, p <+: t → d ≤ (nestFrom (d, .outside) p).1

theorem Balanced.nil : Balanced [] :=
  ⟨fun _ => rfl, fun d p hp => by rw [List.prefix_nil] at hp; subst hp; exact le_rfl⟩

theorem Balanced.append {a b : List Char} (ha : Balanced a) (hb : Balanced b) : Balanced (a ++ b) := by
  refine ⟨fun d => by rw [nestFrom_append, ha.whole, hb.whole], fun d p hp => ?_⟩
  rcases prefix_append hp with h | ⟨q, rfl, hq⟩
  · exact ha.part d p h
  · rw [nestFrom_append, ha.whole]
    exact hb.part d q hq

/-- A character outside strings that is no bracket and no quote. -/
def Neutral (c : Char) : Prop := c ≠ '{' ∧ c ≠ '[' ∧ c ≠ '}' ∧ c ≠ ']' ∧ c ≠ '"'

theorem nestStep_neutral {c : Char} (h : Neutral c) (d : ℕ) : nestStep (d, .outside) c = (d, .outside) := by
  obtain ⟨h1, h2, h3, h4, h5⟩ := h
  simp [nestStep, h1, h2, h3, h4, h5]

theorem nestFrom_neutral {t : List Char} (h : ∀ c ∈ t, Neutral c) (d : ℕ) : nestFrom (d, .outside) t = (d, .outside) := by
  induction t with
  | nil => rfl
  | cons c t ih =>
    rw [nestFrom_cons, nestStep_neutral (h c (by simp))]
    exact ih fun x hx => h x (by simp [hx])

theorem Balanced.neutral {t : List Char} (h : ∀ c ∈ t, Neutral c) : Balanced t :=
  ⟨nestFrom_neutral h, fun d p hp => by rw [nestFrom_neutral (fun c hc => h c (hp.subset hc))]⟩

theorem ws_neutral {w : List Char} (h : Ws w) : ∀ c ∈ w, Neutral c := by
  intro c hc
  rcases h c hc with rfl | rfl | rfl | rfl <;> unfold Neutral <;> decide

theorem digit_neutral {c : Char} (h : IsDigit c) : Neutral c := by
  unfold IsDigit at h
  simp only [List.mem_cons, List.not_mem_nil, or_false] at h
  rcases h with rfl | rfl | rfl | rfl | rfl | rfl | rfl | rfl | rfl | rfl <;> unfold Neutral <;> decide

theorem int_neutral {t : List Char} {n : ℤ} (h : IntText t n) : ∀ c ∈ t, Neutral c := by
  cases h with
  | pos _ h => exact fun c hc => digit_neutral (intPart_digits h c hc)
  | neg t h =>
    intro c hc
    rcases List.mem_cons.mp hc with rfl | hc
    · unfold Neutral; decide
    · exact digit_neutral (intPart_digits h c hc)

theorem real_neutral {t : List Char} (h : RealText t ∨ FloatConstant t) : ∀ c ∈ t, Neutral c := by
  rcases h with ⟨i, n, f, e, rfl, hi, hf, he, _⟩ | h
  · intro c hc
    rcases List.mem_append.mp hc with hc | hc
    · rcases List.mem_append.mp hc with hc | hc
      · exact int_neutral hi c hc
      · rcases hf with rfl | ⟨a, t, rfl, ha, ht⟩
        · cases hc
        · rcases List.mem_cons.mp hc with rfl | hc
          · unfold Neutral; decide
          · rcases List.mem_cons.mp hc with rfl | hc
            · exact digit_neutral ha
            · exact digit_neutral (ht c hc)
    · rcases he with rfl | ⟨x, s, a, t, rfl, hx, hs, ha, ht⟩
      · cases hc
      · rcases List.mem_cons.mp hc with rfl | hc
        · rcases hx with rfl | rfl <;> unfold Neutral <;> decide
        · rcases List.mem_append.mp hc with hc | hc
          · rcases hs with rfl | rfl | rfl
            · cases hc
            · rw [List.mem_singleton.mp hc]; unfold Neutral; decide
            · rw [List.mem_singleton.mp hc]; unfold Neutral; decide
          · rcases List.mem_cons.mp hc with rfl | hc
            · exact digit_neutral ha
            · exact digit_neutral (ht c hc)
  · rcases h with rfl | rfl | rfl <;> unfold Neutral <;> decide

/-- A piece of the inside of a string literal. -/
structure Inside (t : List Char) : Prop where
  whole : ∀ d, nestFrom (d, .inString) t = (d, .inString)
  part : ∀ d p, p <+: t → (nestFrom (d, .inString) p).1 = d

theorem Inside.append {a b : List Char} (ha : Inside a) (hb : Inside b) : Inside (a ++ b) := by
  refine ⟨fun d => by rw [nestFrom_append, ha.whole, hb.whole], fun d p hp => ?_⟩
  rcases prefix_append hp with h | ⟨q, rfl, hq⟩
  · exact ha.part d p h
  · rw [nestFrom_append, ha.whole]
    exact hb.part d q hq

theorem hex_plain {c : Char} {n : ℕ} (h : HexDigit c n) : c ≠ '\\' ∧ c ≠ '"' := by
  unfold HexDigit at h
  have : ∀ x ∈ [('0', 0), ('1', 1), ('2', 2), ('3', 3), ('4', 4), ('5', 5), ('6', 6), ('7', 7), ('8', 8), ('9', 9),
    ('a', 10), ('b', 11), ('c', 12), ('d', 13), ('e', 14), ('f', 15),
    ('A', 10), ('B', 11), ('C', 12), ('D', 13), ('E', 14), ('F', 15)], x.1 ≠ '\\' ∧ x.1 ≠ '"' := by decide
  exact this _ h

theorem unit_inside {t : List Char} {n : ℕ} (h : UnitText t n) : Inside t := by
  obtain ⟨a, b, c, e, x, y, z, w, rfl, ha, hb, hc, he, _⟩ := h
  refine ⟨fun d => by simp [nestFrom, nestStep, hex_plain ha, hex_plain hb, hex_plain hc, hex_plain he], fun d p hp => ?_⟩
  obtain ⟨n, rfl⟩ : ∃ n, p = ['\\', 'u', a, b, c, e].take n := ⟨_, List.prefix_iff_eq_take.mp hp⟩
  rcases n with _ | _ | _ | _ | _ | _ | n <;>
    simp [nestFrom, nestStep, hex_plain ha, hex_plain hb, hex_plain hc, hex_plain he]

theorem char_inside {t : List Char} {c : Char} (h : CharText t c) : Inside t := by
  cases h with
  | plain _ h1 h2 _ =>
    refine ⟨fun d => by simp [nestFrom, nestStep, h1, h2], fun d p hp => ?_⟩
    obtain ⟨n, rfl⟩ : ∃ n, p = [c].take n := ⟨_, List.prefix_iff_eq_take.mp hp⟩
    rcases n with _ | n <;> simp [nestFrom, nestStep, h1, h2]
  | short e c h =>
    refine ⟨fun d => by simp [nestFrom, nestStep], fun d p hp => ?_⟩
    obtain ⟨n, rfl⟩ : ∃ n, p = ['\\', e].take n := ⟨_, List.prefix_iff_eq_take.mp hp⟩
    rcases n with _ | _ | n <;> simp [nestFrom, nestStep]
  | unit t c h => exact unit_inside h
  | pair t₁ t₂ hi lo c h₁ h₂ _ _ _ => exact (unit_inside h₁).append (unit_inside h₂)

theorem chars_inside {t s : List Char} (h : Chars t s) : Inside t := by
  induction h with
  | nil => exact ⟨fun _ => rfl, fun d p hp => by rw [List.prefix_nil] at hp; subst hp; rfl⟩
  | cons t c ts s h _ ih => exact (char_inside h).append ih

theorem string_balanced {t : List Char} {s : String} (h : StringText t s) : Balanced t := by
  obtain ⟨b, rfl, hb⟩ := h
  have hi := chars_inside hb
  have h0 : ∀ d, nestStep (d, .outside) '"' = (d, .inString) := fun d => by simp [nestStep]
  have h1 : ∀ d, nestStep (d, .inString) '"' = (d, .outside) := fun d => by simp [nestStep]
  refine ⟨fun d => ?_, fun d p hp => ?_⟩
  · rw [nestFrom_cons, h0, nestFrom_append, hi.whole, nestFrom_cons, h1]; rfl
  · cases p with
    | nil => exact le_rfl
    | cons c p =>
      rw [List.cons_prefix_cons] at hp
      obtain ⟨rfl, hp⟩ := hp
      rw [nestFrom_cons, h0]
      rcases prefix_append hp with h | ⟨q, rfl, hq⟩
      · rw [hi.part d p h]
      · rw [nestFrom_append, hi.whole]
        obtain ⟨n, rfl⟩ : ∃ n, q = ['"'].take n := ⟨_, List.prefix_iff_eq_take.mp hq⟩
        rcases n with _ | n <;> simp [nestFrom, nestStep]

/-- A text in brackets, and that nothing shorter closes the bracket. -/
theorem bracket_balanced {b : List Char} (hb : Balanced b) (o c : Char) (h : (o = '{' ∧ c = '}') ∨ (o = '[' ∧ c = ']')) :
    Balanced (o :: (b ++ [c])) ∧
      ∀ p, p <+: o :: (b ++ [c]) → p ≠ [] → p.length < (o :: (b ++ [c])).length → (nestFrom (0, .outside) p).1 ≠ 0 := by
  have ho : ∀ d, nestStep (d, .outside) o = (d + 1, .outside) := by
    intro d; rcases h with ⟨rfl, _⟩ | ⟨rfl, _⟩ <;> simp [nestStep]
  have hc : ∀ d, nestStep (d + 1, .outside) c = (d, .outside) := by
    intro d; rcases h with ⟨_, rfl⟩ | ⟨_, rfl⟩ <;> simp [nestStep]
  have key : ∀ d p, p <+: b ++ [c] → p.length < (b ++ [c]).length → d + 1 ≤ (nestFrom (d + 1, .outside) p).1 := by
    intro d p hp hl
    rcases prefix_append hp with h | ⟨q, rfl, hq⟩
    · exact hb.part (d + 1) p h
    · have : q = [] := by
        rw [List.length_append, List.length_append, List.length_singleton] at hl
        exact List.eq_nil_of_length_eq_zero (by omega)
      rw [this, List.append_nil, hb.whole]
  refine ⟨⟨fun d => ?_, fun d p hp => ?_⟩, fun p hp hne hl => ?_⟩
  · rw [nestFrom_cons, ho, nestFrom_append, hb.whole, nestFrom_cons, hc]; rfl
  · cases p with
    | nil => exact le_rfl
    | cons a p =>
      rw [List.cons_prefix_cons] at hp
      obtain ⟨rfl, hp⟩ := hp
      rw [nestFrom_cons, ho]
      by_cases hl : p.length < (b ++ [c]).length
      · exact le_trans (Nat.le_succ d) (key d p hp hl)
      · have : p = b ++ [c] := hp.eq_of_length_le (by omega)
        rw [this, nestFrom_append, hb.whole, nestFrom_cons, hc]; exact le_rfl
  · cases p with
    | nil => exact absurd rfl hne
    | cons a p =>
      rw [List.cons_prefix_cons] at hp
      obtain ⟨rfl, hp⟩ := hp
      rw [nestFrom_cons, ho]
      have := key 0 p hp (by simpa using hl)
      omega

theorem neutral_char {c : Char} (h : Neutral c) : Balanced [c] :=
  Balanced.neutral (fun x hx => by rw [List.mem_singleton.mp hx]; exact h)

theorem value_balanced (pf : List Char → Option α) {t : List Char} {v : Json α} (h : ValueText pf t v) : Balanced t := by
  have hcomma : ∀ ts, Balanced ts → Balanced (',' :: ts) := fun ts h =>
    (neutral_char (c := ',') (by unfold Neutral; decide)).append h
  have hcolon : ∀ ts, Balanced ts → Balanced (':' :: ts) := fun ts h =>
    (neutral_char (c := ':') (by unfold Neutral; decide)).append h
  have hws : ∀ {w : List Char}, Ws w → Balanced w := fun h => Balanced.neutral (ws_neutral h)
  refine ValueText.rec (motive_1 := fun t _ _ => Balanced t) (motive_2 := fun t _ _ => Balanced t)
    (motive_3 := fun t _ _ => Balanced t) ?_ ?_ ?_ ?_ ?_ ?_ ?_ ?_ ?_ ?_ ?_ ?_ ?_ ?_ h
  · exact Balanced.neutral (by unfold Neutral; decide)
  · exact Balanced.neutral (by unfold Neutral; decide)
  · exact Balanced.neutral (by unfold Neutral; decide)
  · exact fun t n h => Balanced.neutral (int_neutral h)
  · exact fun t x h _ => Balanced.neutral (real_neutral h)
  · exact fun t s h => string_balanced h
  · exact fun w h => (bracket_balanced (hws h) _ _ (Or.inr ⟨rfl, rfl⟩)).1
  · exact fun t l _ ih => (bracket_balanced ih _ _ (Or.inr ⟨rfl, rfl⟩)).1
  · exact fun w h => (bracket_balanced (hws h) _ _ (Or.inl ⟨rfl, rfl⟩)).1
  · exact fun t ps d _ _ ih => (bracket_balanced ih _ _ (Or.inl ⟨rfl, rfl⟩)).1
  · exact fun w₁ t w₂ v h₁ _ h₂ ih => ((hws h₁).append ih).append (hws h₂)
  · exact fun w₁ t w₂ ts v vs h₁ _ h₂ _ ih ih2 => (((hws h₁).append ih).append (hws h₂)).append (hcomma _ ih2)
  · exact fun w₁ kt w₂ w₃ t w₄ k v h₁ hk h₂ h₃ _ h₄ ih =>
      (((hws h₁).append (string_balanced hk)).append (hws h₂)).append (hcolon _ (((hws h₃).append ih).append (hws h₄)))
  · exact fun w₁ kt w₂ w₃ t w₄ ts k v ps h₁ hk h₂ h₃ _ h₄ _ ih ih2 =>
      (((hws h₁).append (string_balanced hk)).append (hws h₂)).append
        (hcolon _ ((((hws h₃).append ih).append (hws h₄)).append (hcomma _ ih2)))

theorem members_balanced (pf : List Char → Option α) {t : List Char} {ps : List (String × Json α)} (h : MembersText pf t ps) : Balanced t := by
  have hcomma : ∀ ts, Balanced ts → Balanced (',' :: ts) := fun ts h =>
    (neutral_char (c := ',') (by unfold Neutral; decide)).append h
  have hcolon : ∀ ts, Balanced ts → Balanced (':' :: ts) := fun ts h =>
    (neutral_char (c := ':') (by unfold Neutral; decide)).append h
  have hws : ∀ {w : List Char}, Ws w → Balanced w := fun h => Balanced.neutral (ws_neutral h)
  refine MembersText.rec (motive_1 := fun t _ _ => Balanced t) (motive_2 := fun t _ _ => Balanced t)
    (motive_3 := fun t _ _ => Balanced t) ?_ ?_ ?_ ?_ ?_ ?_ ?_ ?_ ?_ ?_ ?_ ?_ ?_ ?_ h
  · exact Balanced.neutral (by unfold Neutral; decide)
  · exact Balanced.neutral (by unfold Neutral; decide)
  · exact Balanced.neutral (by unfold Neutral; decide)
  · exact fun t n h => Balanced.neutral (int_neutral h)
  · exact fun t x h _ => Balanced.neutral (real_neutral h)
  · exact fun t s h => string_balanced h
  · exact fun w h => (bracket_balanced (hws h) _ _ (Or.inr ⟨rfl, rfl⟩)).1
  · exact fun t l _ ih => (bracket_balanced ih _ _ (Or.inr ⟨rfl, rfl⟩)).1
  · exact fun w h => (bracket_balanced (hws h) _ _ (Or.inl ⟨rfl, rfl⟩)).1
  · exact fun t ps d _ _ ih => (bracket_balanced ih _ _ (Or.inl ⟨rfl, rfl⟩)).1
  · exact fun w₁ t w₂ v h₁ _ h₂ ih => ((hws h₁).append ih).append (hws h₂)
  · exact fun w₁ t w₂ ts v vs h₁ _ h₂ _ ih ih2 => (((hws h₁).append ih).append (hws h₂)).append (hcomma _ ih2)
  · exact fun w₁ kt w₂ w₃ t w₄ k v h₁ hk h₂ h₃ _ h₄ ih =>
      (((hws h₁).append (string_balanced hk)).append (hws h₂)).append (hcolon _ (((hws h₃).append ih).append (hws h₄)))
  · exact fun w₁ kt w₂ w₃ t w₄ ts k v ps h₁ hk h₂ h₃ _ h₄ _ ih ih2 =>
      (((hws h₁).append (string_balanced hk)).append (hws h₂)).append
        (hcolon _ ((((hws h₃).append ih).append (hws h₄)).append (hcomma _ ih2)))

/-- A value has a character that is no white space. -/
theorem value_has_ink (pf : List Char → Option α) {t : List Char} {v : Json α} (h : ValueText pf t v) :
    ∃ c ∈ t, ¬ (c = ' ' ∨ c = '\t' ∨ c = '\n' ∨ c = '\r') := by
  have hint : ∀ {t : List Char} {n : ℤ}, IntText t n → ∃ c ∈ t, ¬ (c = ' ' ∨ c = '\t' ∨ c = '\n' ∨ c = '\r') := by
    intro t n h
    have hpart : ∀ {t : List Char}, IntPart t → ∃ c ∈ t, ¬ (c = ' ' ∨ c = '\t' ∨ c = '\n' ∨ c = '\r') := by
      intro t h
      cases h with
      | zero => exact ⟨'0', by simp, by decide⟩
      | pos c t h0 hc ht =>
        refine ⟨c, by simp, ?_⟩
        rintro (rfl | rfl | rfl | rfl) <;> exact absurd hc (by unfold IsDigit; decide)
    cases h with
    | pos _ h => exact hpart h
    | neg t h => exact ⟨'-', by simp, by decide⟩
  cases h with
  | null => exact ⟨'n', by decide, by decide⟩
  | true => exact ⟨'t', by decide, by decide⟩
  | false => exact ⟨'f', by decide, by decide⟩
  | int _ n h => exact hint h
  | num _ x h hx =>
    rcases h with ⟨i, n, f, e, rfl, hi, _⟩ | h
    · obtain ⟨c, hc, h⟩ := hint hi
      exact ⟨c, by simp [hc], h⟩
    · rcases h with rfl | rfl | rfl
      · exact ⟨'N', by decide, by decide⟩
      · exact ⟨'I', by decide, by decide⟩
      · exact ⟨'I', by decide, by decide⟩
  | str _ s h => obtain ⟨b, rfl, _⟩ := h; exact ⟨'"', by simp, by decide⟩
  | emptyArr w _ => exact ⟨'[', by simp, by decide⟩
  | arr t l _ => exact ⟨'[', by simp, by decide⟩
  | emptyObj w _ => exact ⟨'{', by simp, by decide⟩
  | obj t ps d _ _ => exact ⟨'{', by simp, by decide⟩

/-- Nothing shorter than an object text closes its brackets. -/
theorem object_open (pf : List Char → Option α) {t : List Char} {l : List (String × Json α)} (h : ValueText pf t (.obj l)) :
    (∃ b, t = '{' :: b) ∧ t.getLast? = some '}' ∧
      ∀ p, p <+: t → p ≠ [] → p.length < t.length → (nestFrom (0, .outside) p).1 ≠ 0 := by
  cases h with
  | emptyObj w hw =>
    exact ⟨⟨_, rfl⟩, by rw [← List.cons_append, List.getLast?_concat], (bracket_balanced (Balanced.neutral (ws_neutral hw)) _ _ (Or.inl ⟨rfl, rfl⟩)).2⟩
  | obj b ps _ hm hd =>
    exact ⟨⟨_, rfl⟩, by rw [← List.cons_append, List.getLast?_concat], (bracket_balanced (members_balanced pf hm) _ _ (Or.inl ⟨rfl, rfl⟩)).2⟩

theorem nest_ws {w : List Char} (h : Ws w) (d : ℕ) : nestFrom (d, .outside) w = (d, .outside) := nestFrom_neutral (ws_neutral h) d

/-- No beginning of an object text, without its last bracket, is the text of a value. -/
theorem cut_object (pf : List Char → Option α) {w t : List Char} {l : List (String × Json α)} (hw : Ws w)
    (h : ValueText pf t (.obj l)) (p : List Char) (hp : p <+: w ++ t) (hl : p.length < (w ++ t).length) (j : Json α) :
    ¬ JsonText pf p j := by
  rintro ⟨w₁, v, w₂, rfl, hw₁, hv, hw₂⟩
  obtain ⟨⟨b, rfl⟩, _, hopen⟩ := object_open pf h
  have hbal := value_balanced pf hv
  have hflat : nestFrom (0, .outside) (w₁ ++ v ++ w₂) = (0, .outside) := by
    rw [nestFrom_append, nestFrom_append, nest_ws hw₁, hbal.whole, nest_ws hw₂]
  rcases prefix_append hp with h' | ⟨q, e, hq⟩
  · -- within the white space
    obtain ⟨c, hc, hcw⟩ := value_has_ink pf hv
    exact hcw (hw c (h'.subset (by simp [hc])))
  · rw [e, nestFrom_append, nest_ws hw] at hflat
    rw [e, List.length_append, List.length_append] at hl
    by_cases hq0 : q = []
    · subst hq0
      obtain ⟨c, hc, hcw⟩ := value_has_ink pf hv
      rw [List.append_nil] at e
      exact hcw (hw c (by rw [← e]; simp [hc]))
    · exact hopen q hq hq0 (by omega) (by rw [hflat])

end PyFlowGo
