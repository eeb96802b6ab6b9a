import Verif.Model.JsonText
import Verif.Spec.JsonText
import Verif.Proofs.CsvLemmas
import Mathlib.Tactic.IntervalCases
/-
  The scanner of the model accepts the tokens of the JSON grammar and nothing else.
-/
set_option linter.unusedSectionVars false
namespace PyFlowGo
open Spec

theorem char_eq_of_toNat {c : Char} {n : ℕ} (h : c.toNat = n) : c = Char.ofNat n := by
  rw [← h, Char.ofNat_toNat]

theorem hexDigit_iff (c : Char) (n : ℕ) : hexDigit c = some n ↔ HexDigit c n := by
  constructor
  · intro h
    unfold hexDigit at h
    split at h
    · rename_i h1
      obtain ⟨a, b⟩ := h1
      have hc := char_eq_of_toNat (c := c) rfl
      generalize c.toNat = m at *
      subst hc
      simp only [Option.some.injEq] at h
      subst h
      interval_cases m <;> (unfold HexDigit; decide)
    · split at h
      · rename_i h1
        obtain ⟨a, b⟩ := h1
        have hc := char_eq_of_toNat (c := c) rfl
        generalize c.toNat = m at *
        subst hc
        simp only [Option.some.injEq] at h
        subst h
        interval_cases m <;> (unfold HexDigit; decide)
      · split at h
        · rename_i h1
          obtain ⟨a, b⟩ := h1
          have hc := char_eq_of_toNat (c := c) rfl
          generalize c.toNat = m at *
          subst hc
          simp only [Option.some.injEq] at h
          subst h
          interval_cases m <;> (unfold HexDigit; decide)
        · simp at h
  · intro h
    unfold HexDigit at h
    simp only [List.mem_cons, List.not_mem_nil, or_false, Prod.mk.injEq] at h
    rcases h with h|h|h|h|h|h|h|h|h|h|h|h|h|h|h|h|h|h|h|h|h|h <;> obtain ⟨rfl, rfl⟩ := h <;> rfl

theorem hex4_iff (a b c d : Char) (n : ℕ) :
    hex4 a b c d = some n ↔ UnitText ['\\', 'u', a, b, c, d] n := by
  unfold hex4 UnitText
  constructor
  · intro h
    cases ha : hexDigit a with
    | none => simp [ha] at h
    | some x =>
    cases hb : hexDigit b with
    | none => simp [ha, hb] at h
    | some y =>
    cases hc : hexDigit c with
    | none => simp [ha, hb, hc] at h
    | some z =>
    cases hd : hexDigit d with
    | none => simp [ha, hb, hc, hd] at h
    | some w =>
      simp only [ha, hb, hc, hd, Option.bind_eq_bind, Option.bind_some, Option.pure_def, Option.some.injEq] at h
      exact ⟨a, b, c, d, x, y, z, w, rfl, (hexDigit_iff _ _).mp ha, (hexDigit_iff _ _).mp hb, (hexDigit_iff _ _).mp hc,
        (hexDigit_iff _ _).mp hd, by omega⟩
  · rintro ⟨a', b', c', d', x, y, z, w, he, ha, hb, hc, hd, rfl⟩
    simp only [List.cons.injEq, and_true, true_and] at he
    obtain ⟨rfl, rfl, rfl, rfl⟩ := he
    rw [(hexDigit_iff _ _).mpr ha, (hexDigit_iff _ _).mpr hb, (hexDigit_iff _ _).mpr hc, (hexDigit_iff _ _).mpr hd]
    simp only [Option.bind_eq_bind, Option.bind_some, Option.pure_def, Option.some.injEq]
    omega

theorem unitText_shape {t : List Char} {n : ℕ} (h : UnitText t n) : ∃ a b c d, t = ['\\', 'u', a, b, c, d] := by
  obtain ⟨a, b, c, d, _, _, _, _, h, _⟩ := h
  exact ⟨a, b, c, d, h⟩

theorem backslash_iff (e c : Char) : backslash e = some c ↔ ShortEscape e c := by
  constructor
  · intro h
    unfold backslash at h
    repeat' split at h
    all_goals first
      | (subst_vars; simp only [Option.some.injEq] at h; subst h; unfold ShortEscape; decide)
      | simp at h
  · intro h
    unfold ShortEscape at h
    simp only [List.mem_cons, List.not_mem_nil, or_false, Prod.mk.injEq] at h
    rcases h with h|h|h|h|h|h|h|h <;> obtain ⟨rfl, rfl⟩ := h <;> rfl

theorem char_not_surrogate (c : Char) : ¬ (0xd800 ≤ c.toNat ∧ c.toNat ≤ 0xdfff) := by
  have := c.valid
  unfold UInt32.isValidChar Nat.isValidChar at this
  show ¬ (0xd800 ≤ c.val.toNat ∧ c.val.toNat ≤ 0xdfff)
  omega

theorem toNat_ofNat {n : ℕ} (h : n < 0xd800 ∨ (0xdfff < n ∧ n < 0x110000)) : (Char.ofNat n).toNat = n := by
  have hv : n.isValidChar := h
  unfold Char.ofNat
  rw [dif_pos hv]
  rfl

/-- Reading a character of the grammar. -/
theorem scanChar_complete {t : List Char} {c : Char} (h : CharText t c) (r : List Char) :
    scanChar (t ++ r) = some (c, r) := by
  cases h with
  | plain _ h1 h2 h3 =>
    show scanChar (c :: r) = _
    unfold scanChar
    dsimp only
    rw [if_neg (by omega), if_pos h2]
  | short e _ h =>
    show scanChar ('\\' :: e :: r) = _
    unfold scanChar
    dsimp only
    rw [if_neg (by decide), if_neg (by simp)]
    have hb := (backslash_iff e c).mpr h
    have hu : e ≠ 'u' := by rintro rfl; simp [backslash] at hb
    split
    · rename_i heq
      simp only [List.cons.injEq] at heq
      exact absurd heq.1 hu
    · rename_i heq
      simp only [List.cons.injEq] at heq
      obtain ⟨rfl, rfl⟩ := heq
      rw [hb]; rfl
    · rename_i heq; simp at heq
  | unit _ _ h =>
    obtain ⟨a, b, x, d, rfl⟩ := unitText_shape h
    have h4 := (hex4_iff _ _ _ _ _).mpr h
    show scanChar ('\\' :: 'u' :: a :: b :: x :: d :: r) = _
    unfold scanChar
    dsimp only
    rw [if_neg (by decide), if_neg (by simp)]
    have := char_not_surrogate c
    simp only [h4]
    rw [if_neg (by omega), if_neg (by omega), Char.ofNat_toNat]
  | pair t₁ t₂ hi lo _ h₁ h₂ hhi hlo hc =>
    obtain ⟨a, b, x, d, rfl⟩ := unitText_shape h₁
    obtain ⟨a', b', x', d', rfl⟩ := unitText_shape h₂
    have h4 := (hex4_iff _ _ _ _ _).mpr h₁
    have h4' := (hex4_iff _ _ _ _ _).mpr h₂
    show scanChar ('\\' :: 'u' :: a :: b :: x :: d :: '\\' :: 'u' :: a' :: b' :: x' :: d' :: r) = _
    unfold scanChar
    dsimp only
    rw [if_neg (by decide), if_neg (by simp)]
    simp only [h4, h4']
    rw [if_pos (by omega), if_pos (by omega)]
    have : 65536 + ((55296 + hi - 55296) * 1024 + (56320 + lo - 56320)) = c.toNat := by omega
    rw [this, Char.ofNat_toNat]

theorem charText_head {t : List Char} {c : Char} (h : CharText t c) : ∃ a r, t = a :: r ∧ a ≠ '"' := by
  cases h with
  | plain _ h1 h2 h3 => exact ⟨c, [], rfl, h1⟩
  | short e _ h => exact ⟨_, _, rfl, by decide⟩
  | unit _ _ h => obtain ⟨a, b, x, d, rfl⟩ := unitText_shape h; exact ⟨_, _, rfl, by decide⟩
  | pair t₁ t₂ hi lo _ h₁ h₂ hhi hlo hc =>
    obtain ⟨a, b, x, d, rfl⟩ := unitText_shape h₁; exact ⟨_, _, rfl, by decide⟩

/-- What is read is a character of the grammar. -/
theorem scanChar_sound {l r : List Char} {c : Char} (hq : ∀ r, l ≠ '"' :: r) (h : scanChar l = some (c, r)) :
    ∃ t, l = t ++ r ∧ CharText t c := by
  unfold scanChar at h
  split at h
  · simp at h
  · rename_i a s
    split at h
    · simp at h
    · rename_i h32
      split at h
      · rename_i hb
        simp only [Option.some.injEq, Prod.mk.injEq] at h
        obtain ⟨rfl, rfl⟩ := h
        exact ⟨[a], rfl, .plain a (fun e => hq s (by rw [e])) hb (by omega)⟩
      · rename_i hb
        have hb : a = '\\' := by simpa using hb
        subst hb
        split at h
        · rename_i a b x d r'
          split at h
          · simp at h
          · rename_i n hn
            rw [hex4_iff] at hn
            split at h
            · rename_i hhi
              split at h
              · rename_i a' b' x' d' r''
                split at h
                · simp at h
                · rename_i m hm
                  rw [hex4_iff] at hm
                  split at h
                  · rename_i hlo
                    simp only [Option.some.injEq, Prod.mk.injEq] at h
                    obtain ⟨rfl, rfl⟩ := h
                    refine ⟨['\\', 'u', a, b, x, d] ++ ['\\', 'u', a', b', x', d'], rfl,
                      .pair _ _ (n - 0xd800) (m - 0xdc00) _ ?_ ?_ (by omega) (by omega) ?_⟩
                    · rw [show 55296 + (n - 55296) = n by omega]; exact hn
                    · rw [show 56320 + (m - 56320) = m by omega]; exact hm
                    · rw [toNat_ofNat (by omega)]; omega
                  · simp at h
              · simp at h
            · rename_i hhi
              split at h
              · simp at h
              · rename_i hlo
                simp only [Option.some.injEq, Prod.mk.injEq] at h
                obtain ⟨rfl, rfl⟩ := h
                refine ⟨['\\', 'u', a, b, x, d], rfl, .unit _ _ ?_⟩
                have : n < 65536 := by
                  obtain ⟨_, _, _, _, x1, x2, x3, x4, _, k1, k2, k3, k4, rfl⟩ := hn
                  have hx : ∀ c x, HexDigit c x → x < 16 := by
                    intro c x h
                    unfold HexDigit at h
                    simp only [List.mem_cons, List.not_mem_nil, or_false, Prod.mk.injEq] at h
                    omega
                  have := hx _ _ k1; have := hx _ _ k2; have := hx _ _ k3; have := hx _ _ k4
                  omega
                rw [toNat_ofNat (by omega)]
                exact hn
        · rename_i e r' _
          rw [Option.map_eq_some_iff] at h
          obtain ⟨c', h1, h2⟩ := h
          simp only [Prod.mk.injEq] at h2
          obtain ⟨rfl, rfl⟩ := h2
          exact ⟨['\\', e], rfl, .short e c' ((backslash_iff _ _).mp h1)⟩
        · simp at h

theorem scanString_complete {t s : List Char} (h : Chars t s) : ∀ (n : ℕ) (r : List Char), t.length < n →
    scanString n (t ++ '"' :: r) = some (s, r) := by
  induction h with
  | nil =>
    intro n r hn
    obtain ⟨m, rfl⟩ : ∃ m, n = m + 1 := ⟨n - 1, by simp at hn; omega⟩
    rfl
  | cons t c ts s h hs ih =>
    intro n r hn
    obtain ⟨m, rfl⟩ : ∃ m, n = m + 1 := ⟨n - 1, by omega⟩
    obtain ⟨a, t', rfl, ha⟩ := charText_head h
    have hc := scanChar_complete h (ts ++ '"' :: r)
    rw [List.append_assoc]
    unfold scanString
    simp only [List.cons_append] at hc ⊢
    split
    · rename_i heq
      simp only [List.cons.injEq] at heq
      exact absurd heq.1 ha
    · rw [hc]
      dsimp only
      rw [ih m r (by simp at hn; omega)]

theorem scanString_sound : ∀ (n : ℕ) (l s r : List Char), scanString n l = some (s, r) →
    ∃ t, l = t ++ '"' :: r ∧ Chars t s := by
  intro n
  induction n with
  | zero => intro l s r h; simp [scanString] at h
  | succ n ih =>
    intro l s r h
    unfold scanString at h
    split at h
    · simp only [Option.some.injEq, Prod.mk.injEq] at h
      obtain ⟨rfl, rfl⟩ := h
      exact ⟨[], rfl, .nil⟩
    · rename_i l hq
      split at h
      · simp at h
      · rename_i c r1 hc
        split at h
        · simp at h
        · rename_i s1 r2 hs
          simp only [Option.some.injEq, Prod.mk.injEq] at h
          obtain ⟨rfl, rfl⟩ := h
          obtain ⟨t1, e1, h1⟩ := scanChar_sound (fun r e => hq r e) hc
          obtain ⟨t2, e2, h2⟩ := ih _ _ _ hs
          refine ⟨t1 ++ t2, ?_, .cons _ _ _ _ h1 h2⟩
          rw [e1, e2, List.append_assoc]

end PyFlowGo
