import Verif.Proofs.JsonParse
/-
  Completeness and soundness of the scanner with respect to the grammar.
-/
set_option linter.unusedSectionVars false
namespace PyFlowGo
open Spec
variable {α : Type}

theorem digit_head {c : Char} (h : c = '-' ∨ IsDigit c) :
    isJsonWs c = false ∧ c ≠ ']' ∧ c ≠ '}' ∧ c ≠ '"' ∧ c ≠ '{' ∧ c ≠ '[' := by
  rcases h with rfl | h
  · decide
  · unfold IsDigit at h
    simp only [List.mem_cons, List.not_mem_nil, or_false] at h
    rcases h with rfl|rfl|rfl|rfl|rfl|rfl|rfl|rfl|rfl|rfl <;> decide

theorem realText_head {t : List Char} (h : RealText t) : ∃ c s, t = c :: s ∧ (c = '-' ∨ IsDigit c) := by
  obtain ⟨i, n, f, e, rfl, hi, _⟩ := h
  obtain ⟨c, s, rfl, hc⟩ := intText_head hi
  exact ⟨c, s ++ f ++ e, rfl, hc⟩

theorem valueText_head (pf : List Char → Option α) {t : List Char} {j : Json α} (h : ValueText pf t j) :
    ∃ c s, t = c :: s ∧ isJsonWs c = false ∧ c ≠ ']' ∧ c ≠ '}' := by
  cases h with
  | null => exact ⟨_, _, rfl, by decide⟩
  | true => exact ⟨_, _, rfl, by decide⟩
  | false => exact ⟨_, _, rfl, by decide⟩
  | int _ n h =>
    obtain ⟨c, s, rfl, hc⟩ := intText_head h
    have := digit_head hc
    exact ⟨c, s, rfl, this.1, this.2.1, this.2.2.1⟩
  | num _ x h hx =>
    rcases h with h | h
    · obtain ⟨c, s, rfl, hc⟩ := realText_head h
      have := digit_head hc
      exact ⟨c, s, rfl, this.1, this.2.1, this.2.2.1⟩
    · rcases h with rfl | rfl | rfl <;> exact ⟨_, _, rfl, by decide⟩
  | str _ s h => obtain ⟨b, rfl, _⟩ := h; exact ⟨_, _, rfl, by decide⟩
  | emptyArr w h => exact ⟨_, _, rfl, by decide⟩
  | arr t l h => exact ⟨_, _, rfl, by decide⟩
  | emptyObj w h => exact ⟨_, _, rfl, by decide⟩
  | obj t ps d h hd => exact ⟨_, _, rfl, by decide⟩

theorem scanValue_atom (pf : List Char → Option α) (n : ℕ) {c : Char} (s : List Char) (h1 : c ≠ '"') (h2 : c ≠ '{')
    (h3 : c ≠ '[') : scanValue pf (n + 1) (c :: s) = scanAtom pf (c :: s) := by
  unfold scanValue
  split
  · rename_i heq; simp only [List.cons.injEq] at heq; exact absurd heq.1 h1
  · rename_i heq; simp only [List.cons.injEq] at heq; exact absurd heq.1 h2
  · rename_i heq; simp only [List.cons.injEq] at heq; exact absurd heq.1 h3
  · rfl

theorem scanValue_arr_empty (pf : List Char → Option α) (n : ℕ) {s r : List Char} (h : skipWs s = ']' :: r) :
    scanValue pf (n + 1) ('[' :: s) = some (.arr [], r) := by
  rw [scanValue.eq_def]
  simp only [h]

theorem scanValue_obj_empty (pf : List Char → Option α) (n : ℕ) {s r : List Char} (h : skipWs s = '}' :: r) :
    scanValue pf (n + 1) ('{' :: s) = some (.obj [], r) := by
  rw [scanValue.eq_def]
  simp only [h]

theorem scanValue_arr (pf : List Char → Option α) (n : ℕ) {s : List Char} (h : ∀ r, skipWs s ≠ ']' :: r) :
    scanValue pf (n + 1) ('[' :: s) = (scanElements pf n (skipWs s)).map fun o => (.arr o.1, o.2) := by
  rw [scanValue.eq_def]
  simp only

theorem scanValue_obj (pf : List Char → Option α) (n : ℕ) {s : List Char} (h : ∀ r, skipWs s ≠ '}' :: r) :
    scanValue pf (n + 1) ('{' :: s) = (scanMembers pf n (skipWs s)).map fun o => (.obj (dictOf o.1), o.2) := by
  rw [scanValue.eq_def]
  simp only

theorem numFollow_ws {w r : List Char} (hw : Ws w) (hr : NumFollow r) : NumFollow (w ++ r) := by
  cases w with
  | nil => exact hr
  | cons c w =>
    intro d hd
    have : c = d := by simpa using hd
    subst this
    rcases hw c (by simp) with rfl | rfl | rfl | rfl <;> (unfold IsDigit; decide)

theorem numFollow_delim (c : Char) (r : List Char) (h : c = ',' ∨ c = ']' ∨ c = '}') : NumFollow (c :: r) := by
  intro d hd
  have : c = d := by simpa using hd
  subst this
  rcases h with rfl | rfl | rfl <;> (unfold IsDigit; decide)

theorem stringText_scan {t : List Char} {k : String} (h : StringText t k) (r : List Char) :
    ∃ s, t ++ r = '"' :: s ∧ scanString s.length.succ s = some (k.toList, r) := by
  obtain ⟨b, rfl, hb⟩ := h
  refine ⟨b ++ '"' :: r, by simp, scanString_complete hb _ r ?_⟩
  simp only [List.length_append, List.length_cons]
  omega

theorem stringText_head {t : List Char} {k : String} (h : StringText t k) : ∃ s, t = '"' :: s := by
  obtain ⟨b, rfl, hb⟩ := h; exact ⟨_, rfl⟩

theorem head_append {c : Char} {s t r : List Char} (h : t = c :: s) : (t ++ r).head? = some c := by rw [h]; rfl

theorem scanValue_complete (pf : List Char → Option α) {t : List Char} {j : Json α} (h : ValueText pf t j) :
    ∀ (n : ℕ) (r : List Char), 2 * t.length ≤ n → NumFollow r → scanValue pf n (t ++ r) = some (j, r) := by
  have atom : ∀ (t : List Char) (j : Json α), (∃ c s, t = c :: s ∧ c ≠ '"' ∧ c ≠ '{' ∧ c ≠ '[') →
      (∀ r, NumFollow r → scanAtom pf (t ++ r) = some (j, r)) →
      ∀ (n : ℕ) (r : List Char), 2 * t.length ≤ n → NumFollow r → scanValue pf n (t ++ r) = some (j, r) := by
    rintro t j ⟨c, s, rfl, h1, h2, h3⟩ ha n r hn hr
    obtain ⟨m, rfl⟩ : ∃ m, n = m + 1 := ⟨n - 1, by simp at hn; omega⟩
    rw [List.cons_append, scanValue_atom pf m _ h1 h2 h3, ← List.cons_append]
    exact ha r hr
  refine ValueText.rec (pf := pf)
    (motive_1 := fun t j _ => ∀ (n : ℕ) (r : List Char), 2 * t.length ≤ n → NumFollow r → scanValue pf n (t ++ r) = some (j, r))
    (motive_2 := fun t l _ => ∀ (n : ℕ) (r : List Char), 2 * t.length + 1 ≤ n →
      scanElements pf n (skipWs (t ++ ']' :: r)) = some (l, r) ∧ ∀ s, skipWs (t ++ ']' :: r) ≠ ']' :: s)
    (motive_3 := fun t l _ => ∀ (n : ℕ) (r : List Char), 2 * t.length + 1 ≤ n →
      scanMembers pf n (skipWs (t ++ '}' :: r)) = some (l, r) ∧ ∀ s, skipWs (t ++ '}' :: r) ≠ '}' :: s)
    ?_ ?_ ?_ ?_ ?_ ?_ ?_ ?_ ?_ ?_ ?_ ?_ ?_ ?_ h
  · exact atom _ _ ⟨_, _, rfl, by decide⟩ fun r _ => by unfold scanAtom; rw [scanWord_append]
  · refine atom _ _ ⟨_, _, rfl, by decide⟩ fun r _ => ?_
    unfold scanAtom
    rw [show scanWord "null".toList ("true".toList ++ r) = none from scanWord_head (by decide), scanWord_append]
  · refine atom _ _ ⟨_, _, rfl, by decide⟩ fun r _ => ?_
    unfold scanAtom
    rw [show scanWord "null".toList ("false".toList ++ r) = none from scanWord_head (by decide),
      show scanWord "true".toList ("false".toList ++ r) = none from scanWord_head (by decide), scanWord_append]
  · intro t n h
    obtain ⟨c, s, e, hc⟩ := intText_head h
    have hd := digit_head hc
    refine atom _ _ ⟨c, s, e, hd.2.2.2⟩ fun r hr => ?_
    exact scanAtom_number pf ⟨c, s, e, hc⟩ (by rw [(scanInt_complete h hr.noDigit).1]; rfl) (scanNumber_int pf h hr)
  · intro t x h hx
    rcases h with h | h
    · obtain ⟨c, s, e, hc⟩ := realText_head h
      have hd := digit_head hc
      refine atom _ _ ⟨c, s, e, hd.2.2.2⟩ fun r hr => ?_
      have hs := scanNumber_real pf h hx hr
      refine scanAtom_number pf ⟨c, s, e, hc⟩ ?_ hs
      by_contra hcon
      rw [Option.not_isSome_iff_eq_none] at hcon
      unfold scanNumber at hs
      rw [hcon] at hs
      simp at hs
    · refine atom _ _ ?_ fun r _ => scanAtom_constant pf h hx
      rcases h with rfl | rfl | rfl <;> exact ⟨_, _, rfl, by decide⟩
  · intro t s h n r hn hr
    obtain ⟨b, hb, hs⟩ := stringText_scan h r
    obtain ⟨m, rfl⟩ : ∃ m, n = m + 1 := ⟨n - 1, by obtain ⟨b, rfl, _⟩ := h; simp at hn; omega⟩
    rw [hb]
    unfold scanValue
    simp only
    rw [hs]
    simp
  · intro w hw n r hn hr
    obtain ⟨m, rfl⟩ : ∃ m, n = m + 1 := ⟨n - 1, by simp at hn; omega⟩
    have e : '[' :: (w ++ [']']) ++ r = '[' :: (w ++ ']' :: r) := by simp
    rw [e]
    exact scanValue_arr_empty pf m (skipWs_append hw (by simp; decide))
  · intro t l _ ih n r hn hr
    obtain ⟨m, rfl⟩ : ∃ m, n = m + 1 := ⟨n - 1, by simp at hn; omega⟩
    have e : '[' :: (t ++ [']']) ++ r = '[' :: (t ++ ']' :: r) := by simp
    obtain ⟨h1, h2⟩ := ih m r (by simp at hn; omega)
    rw [e, scanValue_arr pf m h2, h1]; rfl
  · intro w hw n r hn hr
    obtain ⟨m, rfl⟩ : ∃ m, n = m + 1 := ⟨n - 1, by simp at hn; omega⟩
    have e : '{' :: (w ++ ['}']) ++ r = '{' :: (w ++ '}' :: r) := by simp
    rw [e]
    exact scanValue_obj_empty pf m (skipWs_append hw (by simp; decide))
  · intro t ps d _ hd ih n r hn hr
    obtain ⟨m, rfl⟩ : ∃ m, n = m + 1 := ⟨n - 1, by simp at hn; omega⟩
    have e : '{' :: (t ++ ['}']) ++ r = '{' :: (t ++ '}' :: r) := by simp
    obtain ⟨h1, h2⟩ := ih m r (by simp at hn; omega)
    rw [e, members_unique hd, scanValue_obj pf m h2, h1]; rfl
  · intro w₁ t w₂ v h₁ hv h₂ ih n r hn
    obtain ⟨m, rfl⟩ : ∃ m, n = m + 1 := ⟨n - 1, by omega⟩
    obtain ⟨c, s, ht, hc1, hc2, _⟩ := valueText_head pf hv
    have e : w₁ ++ t ++ w₂ ++ ']' :: r = w₁ ++ (t ++ (w₂ ++ ']' :: r)) := by simp
    rw [e, skipWs_append h₁ (by rw [head_append ht]; simpa using hc1)]
    constructor
    · unfold scanElements
      rw [ih m _ (by simp at hn; omega) (numFollow_ws h₂ (numFollow_delim _ _ (by simp)))]
      simp only
      rw [skipWs_append h₂ (by simp; decide)]
      simp only
    · intro s' hs
      have := head_append (r := w₂ ++ ']' :: r) ht
      rw [hs] at this
      exact hc2 (by simpa using this.symm)
  · intro w₁ t w₂ ts v vs h₁ hv h₂ _ ih ihs n r hn
    obtain ⟨m, rfl⟩ : ∃ m, n = m + 1 := ⟨n - 1, by omega⟩
    obtain ⟨c, s, ht, hc1, hc2, _⟩ := valueText_head pf hv
    have e : w₁ ++ t ++ w₂ ++ ',' :: ts ++ ']' :: r = w₁ ++ (t ++ (w₂ ++ ',' :: (ts ++ ']' :: r))) := by simp
    rw [e, skipWs_append h₁ (by rw [head_append ht]; simpa using hc1)]
    constructor
    · unfold scanElements
      rw [ih m _ (by simp at hn; omega) (numFollow_ws h₂ (numFollow_delim _ _ (by simp)))]
      simp only
      rw [skipWs_append h₂ (by simp; decide)]
      simp only
      rw [(ihs m r (by simp at hn; omega)).1]
    · intro s' hs
      have := head_append (r := w₂ ++ ',' :: (ts ++ ']' :: r)) ht
      rw [hs] at this
      exact hc2 (by simpa using this.symm)
  · intro w₁ kt w₂ w₃ t w₄ k v h₁ hk h₂ h₃ hv h₄ ih n r hn
    obtain ⟨m, rfl⟩ : ∃ m, n = m + 1 := ⟨n - 1, by omega⟩
    obtain ⟨c, s, ht, hc1, _, hc2⟩ := valueText_head pf hv
    have e : w₁ ++ kt ++ w₂ ++ ':' :: (w₃ ++ t ++ w₄) ++ '}' :: r =
        w₁ ++ (kt ++ (w₂ ++ ':' :: (w₃ ++ (t ++ (w₄ ++ '}' :: r))))) := by simp
    obtain ⟨b, hb, hs⟩ := stringText_scan hk (w₂ ++ ':' :: (w₃ ++ (t ++ (w₄ ++ '}' :: r))))
    rw [e, hb, skipWs_append h₁ (by simp; decide)]
    constructor
    · unfold scanMembers
      simp only
      rw [hs]
      simp only
      rw [skipWs_append h₂ (by simp; decide)]
      simp only
      rw [skipWs_append h₃ (by rw [head_append ht]; simpa using hc1),
        ih m _ (by simp at hn; omega) (numFollow_ws h₄ (numFollow_delim _ _ (by simp)))]
      simp only
      rw [skipWs_append h₄ (by simp; decide)]
      simp
    · intro s' hs; simp at hs
  · intro w₁ kt w₂ w₃ t w₄ ts k v ps h₁ hk h₂ h₃ hv h₄ _ ih ihs n r hn
    obtain ⟨m, rfl⟩ : ∃ m, n = m + 1 := ⟨n - 1, by omega⟩
    obtain ⟨c, s, ht, hc1, _, hc2⟩ := valueText_head pf hv
    have e : w₁ ++ kt ++ w₂ ++ ':' :: (w₃ ++ t ++ w₄ ++ ',' :: ts) ++ '}' :: r =
        w₁ ++ (kt ++ (w₂ ++ ':' :: (w₃ ++ (t ++ (w₄ ++ ',' :: (ts ++ '}' :: r)))))) := by simp
    obtain ⟨b, hb, hs⟩ := stringText_scan hk (w₂ ++ ':' :: (w₃ ++ (t ++ (w₄ ++ ',' :: (ts ++ '}' :: r)))))
    rw [e, hb, skipWs_append h₁ (by simp; decide)]
    constructor
    · unfold scanMembers
      simp only
      rw [hs]
      simp only
      rw [skipWs_append h₂ (by simp; decide)]
      simp only
      rw [skipWs_append h₃ (by rw [head_append ht]; simpa using hc1),
        ih m _ (by simp at hn; omega) (numFollow_ws h₄ (numFollow_delim _ _ (by simp)))]
      simp only
      rw [skipWs_append h₄ (by simp; decide)]
      simp only
      rw [(ihs m r (by simp at hn; omega)).1]
      simp
    · intro s' hs; simp at hs

theorem scan_sound (pf : List Char → Option α) (n : ℕ) :
    (∀ (l r : List Char) (j : Json α), scanValue pf n l = some (j, r) → ∃ t, l = t ++ r ∧ ValueText pf t j) ∧
    (∀ (l r : List Char) (vs : List (Json α)), scanElements pf n l = some (vs, r) →
      ∃ t, l = t ++ ']' :: r ∧ ElementsText pf t vs) ∧
    (∀ (l r : List Char) (ps : List (String × Json α)), scanMembers pf n l = some (ps, r) →
      ∃ t, l = t ++ '}' :: r ∧ MembersText pf t ps) := by
  induction n with
  | zero => exact ⟨fun l r j h => by simp [scanValue] at h, fun l r j h => by simp [scanElements] at h,
      fun l r j h => by simp [scanMembers] at h⟩
  | succ n ih =>
    obtain ⟨ihv, ihe, ihm⟩ := ih
    have wsPre : ∀ {l s : List Char} {vs : List (Json α)}, (∃ w, l = w ++ s ∧ Ws w) → ∀ {t r}, s = t ++ ']' :: r →
        ElementsText pf t vs → ∃ t', l = t' ++ ']' :: r ∧ ElementsText pf t' vs := by
      rintro l s vs ⟨w, rfl, hw⟩ t r rfl ht
      have hws : ∀ {a b : List Char}, Ws a → Ws b → Ws (a ++ b) := fun ha hb c hc =>
        (List.mem_append.mp hc).elim (ha c) (hb c)
      cases ht with
      | one w₁ t w₂ v h₁ h h₂ =>
        exact ⟨(w ++ w₁) ++ t ++ w₂, by simp, .one _ _ _ _ (hws hw h₁) h h₂⟩
      | cons w₁ t w₂ ts v vs h₁ h h₂ hs =>
        exact ⟨(w ++ w₁) ++ t ++ w₂ ++ ',' :: ts, by simp, .cons _ _ _ _ _ _ (hws hw h₁) h h₂ hs⟩
    have wsPreM : ∀ {l s : List Char} {ps : List (String × Json α)}, (∃ w, l = w ++ s ∧ Ws w) → ∀ {t r}, s = t ++ '}' :: r →
        MembersText pf t ps → ∃ t', l = t' ++ '}' :: r ∧ MembersText pf t' ps := by
      rintro l s vs ⟨w, rfl, hw⟩ t r rfl ht
      have hws : ∀ {a b : List Char}, Ws a → Ws b → Ws (a ++ b) := fun ha hb c hc =>
        (List.mem_append.mp hc).elim (ha c) (hb c)
      cases ht with
      | one w₁ kt w₂ w₃ t w₄ k v h₁ hk h₂ h₃ h h₄ =>
        exact ⟨(w ++ w₁) ++ kt ++ w₂ ++ ':' :: (w₃ ++ t ++ w₄), by simp, .one _ _ _ _ _ _ _ _ (hws hw h₁) hk h₂ h₃ h h₄⟩
      | cons w₁ kt w₂ w₃ t w₄ ts k v ps h₁ hk h₂ h₃ h h₄ hs =>
        exact ⟨(w ++ w₁) ++ kt ++ w₂ ++ ':' :: (w₃ ++ t ++ w₄ ++ ',' :: ts), by simp,
          .cons _ _ _ _ _ _ _ _ _ _ (hws hw h₁) hk h₂ h₃ h h₄ hs⟩
    refine ⟨fun l r j h => ?_, fun l r vs h => ?_, fun l r ps h => ?_⟩
    · unfold scanValue at h
      split at h
      · rename_i s
        rw [Option.map_eq_some_iff] at h
        obtain ⟨⟨k, r'⟩, h1, h2⟩ := h
        simp only [Prod.mk.injEq] at h2
        obtain ⟨rfl, rfl⟩ := h2
        obtain ⟨t, rfl, ht⟩ := scanString_sound _ _ _ _ h1
        exact ⟨'"' :: (t ++ ['"']), by simp, .str _ _ ⟨t, rfl, by simpa using ht⟩⟩
      · rename_i s
        split at h
        · rename_i r' heq
          simp only [Option.some.injEq, Prod.mk.injEq] at h
          obtain ⟨rfl, rfl⟩ := h
          obtain ⟨w, hw, hws⟩ := skipWs_sound s
          rw [heq] at hw
          exact ⟨'{' :: (w ++ ['}']), by rw [hw]; simp, .emptyObj w hws⟩
        · rw [Option.map_eq_some_iff] at h
          obtain ⟨⟨ps, r'⟩, h1, h2⟩ := h
          simp only [Prod.mk.injEq] at h2
          obtain ⟨rfl, rfl⟩ := h2
          obtain ⟨t, e, ht⟩ := ihm _ _ _ h1
          obtain ⟨t', e', ht'⟩ := wsPreM (skipWs_sound s) e ht
          exact ⟨'{' :: (t' ++ ['}']), by rw [e']; simp, .obj _ _ _ ht' (dictOf_members ps)⟩
      · rename_i s
        split at h
        · rename_i r' heq
          simp only [Option.some.injEq, Prod.mk.injEq] at h
          obtain ⟨rfl, rfl⟩ := h
          obtain ⟨w, hw, hws⟩ := skipWs_sound s
          rw [heq] at hw
          exact ⟨'[' :: (w ++ [']']), by rw [hw]; simp, .emptyArr w hws⟩
        · rw [Option.map_eq_some_iff] at h
          obtain ⟨⟨ps, r'⟩, h1, h2⟩ := h
          simp only [Prod.mk.injEq] at h2
          obtain ⟨rfl, rfl⟩ := h2
          obtain ⟨t, e, ht⟩ := ihe _ _ _ h1
          obtain ⟨t', e', ht'⟩ := wsPre (skipWs_sound s) e ht
          exact ⟨'[' :: (t' ++ [']']), by rw [e']; simp, .arr _ _ ht'⟩
      · exact scanAtom_sound pf h
    · unfold scanElements at h
      split at h
      · simp at h
      · rename_i v r1 hv
        obtain ⟨t, rfl, ht⟩ := ihv _ _ _ hv
        obtain ⟨w, hw, hws⟩ := skipWs_sound r1
        split at h
        · rename_i r2 heq
          simp only [Option.some.injEq, Prod.mk.injEq] at h
          obtain ⟨rfl, rfl⟩ := h
          rw [heq] at hw
          exact ⟨[] ++ t ++ w, by rw [hw]; simp, .one [] t w v (by simp [Ws]) ht hws⟩
        · rename_i r2 heq
          rw [heq] at hw
          split at h
          · simp at h
          · rename_i vs' r3 hvs
            simp only [Option.some.injEq, Prod.mk.injEq] at h
            obtain ⟨rfl, rfl⟩ := h
            obtain ⟨ts, e, hts⟩ := ihe _ _ _ hvs
            obtain ⟨ts', e', hts'⟩ := wsPre (skipWs_sound r2) e hts
            exact ⟨[] ++ t ++ w ++ ',' :: ts', by rw [hw, e']; simp, .cons [] t w ts' v vs' (by simp [Ws]) ht hws hts'⟩
        · simp at h
    · unfold scanMembers at h
      split at h
      · rename_i s
        split at h
        · simp at h
        · rename_i k r1 hk
          obtain ⟨b, rfl, hb⟩ := scanString_sound _ _ _ _ hk
          have hkt : StringText ('"' :: (b ++ ['"'])) (String.ofList k) := ⟨b, rfl, by simpa using hb⟩
          obtain ⟨w₂, hw₂, hws₂⟩ := skipWs_sound r1
          split at h
          · rename_i r2 heq
            rw [heq] at hw₂
            split at h
            · simp at h
            · rename_i v r3 hv
              obtain ⟨t, e3, ht⟩ := ihv _ _ _ hv
              obtain ⟨w₃, hw₃, hws₃⟩ := skipWs_sound r2
              obtain ⟨w₄, hw₄, hws₄⟩ := skipWs_sound r3
              rw [e3] at hw₃
              split at h
              · rename_i r4 heq4
                rw [heq4] at hw₄
                simp only [Option.some.injEq, Prod.mk.injEq] at h
                obtain ⟨rfl, rfl⟩ := h
                exact ⟨[] ++ ('"' :: (b ++ ['"'])) ++ w₂ ++ ':' :: (w₃ ++ t ++ w₄), by rw [hw₂, hw₃, hw₄]; simp,
                  .one [] _ w₂ w₃ t w₄ _ v (by simp [Ws]) hkt hws₂ hws₃ ht hws₄⟩
              · rename_i r4 heq4
                rw [heq4] at hw₄
                split at h
                · simp at h
                · rename_i ps' r5 hps
                  simp only [Option.some.injEq, Prod.mk.injEq] at h
                  obtain ⟨rfl, rfl⟩ := h
                  obtain ⟨ts, e, hts⟩ := ihm _ _ _ hps
                  obtain ⟨ts', e', hts'⟩ := wsPreM (skipWs_sound r4) e hts
                  exact ⟨[] ++ ('"' :: (b ++ ['"'])) ++ w₂ ++ ':' :: (w₃ ++ t ++ w₄ ++ ',' :: ts'),
                    by rw [hw₂, hw₃, hw₄, e']; simp,
                    .cons [] _ w₂ w₃ t w₄ ts' _ v ps' (by simp [Ws]) hkt hws₂ hws₃ ht hws₄ hts'⟩
              · simp at h
          · simp at h
      · simp at h

end PyFlowGo
