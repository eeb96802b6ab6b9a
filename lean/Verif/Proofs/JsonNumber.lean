import Verif.Proofs.JsonScan
/-
  Numbers, words and white space of the JSON scanner.
-/
set_option linter.unusedSectionVars false
namespace PyFlowGo
open Spec
variable {α : Type}

theorem isDec_iff (c : Char) : isDec c = true ↔ IsDigit c := by
  unfold isDec IsDigit
  rw [decide_eq_true_iff]
  constructor
  · rintro ⟨a, b⟩
    have hc := char_eq_of_toNat (c := c) rfl
    generalize c.toNat = m at *
    subst hc
    interval_cases m <;> decide
  · intro h
    simp only [List.mem_cons, List.not_mem_nil, or_false] at h
    rcases h with rfl|rfl|rfl|rfl|rfl|rfl|rfl|rfl|rfl|rfl <;> decide

/-- The text does not start with a digit. -/
def NoDigit (r : List Char) : Prop := ∀ c ∈ r.head?, ¬ IsDigit c
/-- The text cannot continue a number. -/
def NumFollow (r : List Char) : Prop := ∀ c ∈ r.head?, ¬ IsDigit c ∧ c ≠ '.' ∧ c ≠ 'e' ∧ c ≠ 'E'

theorem NumFollow.noDigit {r : List Char} (h : NumFollow r) : NoDigit r := fun c hc => (h c hc).1

theorem span_append {p : Char → Bool} {t r : List Char} (ht : ∀ d ∈ t, p d = true) (hr : ∀ c ∈ r.head?, p c = false) :
    (t ++ r).takeWhile p = t ∧ (t ++ r).dropWhile p = r := by
  induction t with
  | nil =>
    cases r with
    | nil => exact ⟨rfl, rfl⟩
    | cons c r =>
      have := hr c (by simp)
      simp [this]
  | cons a t ih =>
    have ha := ht a (by simp)
    obtain ⟨h1, h2⟩ := ih (fun d hd => ht d (by simp [hd]))
    simp [ha, h1, h2]

theorem digits_span {t r : List Char} (ht : ∀ d ∈ t, IsDigit d) (hr : NoDigit r) :
    (t ++ r).takeWhile isDec = t ∧ (t ++ r).dropWhile isDec = r :=
  span_append (fun d hd => (isDec_iff d).mpr (ht d hd)) fun c hc => by
    have := hr c hc
    rw [← isDec_iff] at this
    simpa using this

theorem takeWhile_digits (l : List Char) : ∀ d ∈ l.takeWhile isDec, IsDigit d :=
  fun d hd => (isDec_iff d).mp (List.all_eq_true.mp List.all_takeWhile d hd)

theorem decValue_eq (t : List Char) : decValue t = decimal t := by
  unfold decValue decimal
  induction t using List.reverseRecOn with
  | nil => rfl
  | append_singleton t c ih =>
    rw [List.foldl_append, ih]
    simp [Nat.ofDigits_cons]
    omega

theorem intPart_head {t : List Char} (h : IntPart t) : ∃ c r, t = c :: r ∧ IsDigit c := by
  cases h with
  | zero => exact ⟨_, _, rfl, by unfold IsDigit; decide⟩
  | pos c t h0 hc ht => exact ⟨_, _, rfl, hc⟩

theorem digits_complete {t r : List Char} (h : IntPart t) (hr : NoDigit r) : scanInt.digits (t ++ r) = some (t, r) := by
  cases h with
  | zero => rfl
  | pos c t h0 hc ht =>
    obtain ⟨h1, h2⟩ := digits_span ht hr
    rw [List.cons_append, scanInt.digits, if_neg h0, if_pos ((isDec_iff c).mpr hc), h1, h2]

theorem digits_sound {l t r : List Char} (h : scanInt.digits l = some (t, r)) : l = t ++ r ∧ IntPart t := by
  unfold scanInt.digits at h
  split at h
  · simp at h
  · rename_i c s
    split at h
    · rename_i h0
      simp only [Option.some.injEq, Prod.mk.injEq] at h
      obtain ⟨rfl, rfl⟩ := h
      exact ⟨by rw [h0]; rfl, .zero⟩
    · split at h
      · rename_i h0 hd
        simp only [Option.some.injEq, Prod.mk.injEq] at h
        obtain ⟨rfl, rfl⟩ := h
        exact ⟨by simp [List.takeWhile_append_dropWhile], .pos _ _ h0 ((isDec_iff c).mp hd) (takeWhile_digits s)⟩
      · simp at h

theorem minus_not_digit : ¬ IsDigit '-' := by unfold IsDigit; decide

theorem intText_head {t : List Char} {n : ℤ} (h : IntText t n) : ∃ c r, t = c :: r ∧ (c = '-' ∨ IsDigit c) := by
  cases h with
  | pos t h => obtain ⟨c, r, rfl, hc⟩ := intPart_head h; exact ⟨c, r, rfl, Or.inr hc⟩
  | neg t h => exact ⟨_, _, rfl, Or.inl rfl⟩

theorem scanInt_complete {t r : List Char} {n : ℤ} (h : IntText t n) (hr : NoDigit r) :
    scanInt (t ++ r) = some (t, r) ∧ intValue t = n := by
  cases h with
  | pos t h =>
    have hd := digits_complete h hr
    obtain ⟨c, s, rfl, hc⟩ := intPart_head h
    have hm : c ≠ '-' := by rintro rfl; exact minus_not_digit hc
    constructor
    · unfold scanInt
      split
      · rename_i heq
        simp only [List.cons_append, List.cons.injEq] at heq
        exact absurd heq.1 hm
      · exact hd
    · unfold intValue
      split
      · rename_i heq
        simp only [List.cons.injEq] at heq
        exact absurd heq.1 hm
      · rw [decValue_eq]
  | neg t h =>
    have hd := digits_complete h hr
    constructor
    · show (scanInt.digits (t ++ r)).map _ = _
      rw [hd]; rfl
    · show -(decValue t : ℤ) = _
      rw [decValue_eq]

theorem scanInt_sound {l t r : List Char} (h : scanInt l = some (t, r)) : l = t ++ r ∧ IntText t (intValue t) := by
  unfold scanInt at h
  split at h
  · rw [Option.map_eq_some_iff] at h
    obtain ⟨⟨t', r'⟩, h1, h2⟩ := h
    simp only [Prod.mk.injEq] at h2
    obtain ⟨rfl, rfl⟩ := h2
    obtain ⟨rfl, h3⟩ := digits_sound h1
    refine ⟨rfl, ?_⟩
    show IntText ('-' :: t') (-(decValue t' : ℤ))
    rw [decValue_eq]
    exact .neg _ h3
  · obtain ⟨rfl, h3⟩ := digits_sound h
    refine ⟨rfl, ?_⟩
    obtain ⟨c, s, rfl, hc⟩ := intPart_head h3
    have hm : c ≠ '-' := by rintro rfl; exact minus_not_digit hc
    have : intValue (c :: s) = (decimal (c :: s) : ℤ) := by
      unfold intValue
      split
      · rename_i heq
        simp only [List.cons.injEq] at heq
        exact absurd heq.1 hm
      · rw [decValue_eq]
    rw [this]
    exact .pos _ h3

theorem someDigits_complete {pre : List Char} {c : Char} {t r : List Char} (hc : IsDigit c) (ht : ∀ d ∈ t, IsDigit d)
    (hr : NoDigit r) : someDigits pre (c :: t ++ r) = some (pre ++ c :: t, r) := by
  obtain ⟨h1, h2⟩ := digits_span (t := c :: t) (r := r) (by simpa using ⟨hc, ht⟩) hr
  unfold someDigits
  rw [h1, h2, if_neg (by simp)]

theorem someDigits_sound {pre l t r : List Char} (h : someDigits pre l = some (t, r)) :
    ∃ c s, l = c :: s ++ r ∧ t = pre ++ c :: s ∧ IsDigit c ∧ ∀ d ∈ s, IsDigit d := by
  unfold someDigits at h
  split at h
  · simp at h
  · rename_i hne
    simp only [Option.some.injEq, Prod.mk.injEq] at h
    obtain ⟨rfl, rfl⟩ := h
    have hd := takeWhile_digits l
    have hl := List.takeWhile_append_dropWhile (p := isDec) (l := l)
    cases ht : l.takeWhile isDec with
    | nil => exact absurd ht hne
    | cons c s =>
      rw [ht] at hd hl
      exact ⟨c, s, hl.symm, rfl, hd c (by simp), fun d h => hd d (by simp [h])⟩

theorem scanFrac_complete {f r : List Char} (h : FracText f) (hr : NoDigit r) : scanFrac (f ++ r) = (f, r) := by
  obtain ⟨c, t, rfl, hc, ht⟩ := h
  show (someDigits ['.'] (c :: t ++ r)).getD _ = _
  rw [someDigits_complete hc ht hr]; rfl

theorem scanFrac_none {r : List Char} (hr : ∀ c ∈ r.head?, c ≠ '.') : scanFrac r = ([], r) := by
  unfold scanFrac
  split
  · exact absurd rfl (hr '.' (by simp))
  · rfl

theorem scanFrac_sound {l f r : List Char} (h : scanFrac l = (f, r)) : l = f ++ r ∧ (f = [] ∨ FracText f) := by
  unfold scanFrac at h
  split at h
  · rename_i s
    cases hs : someDigits ['.'] s with
    | none =>
      rw [hs] at h
      simp only [Option.getD_none, Prod.mk.injEq] at h
      obtain ⟨rfl, rfl⟩ := h
      exact ⟨rfl, Or.inl rfl⟩
    | some o =>
      obtain ⟨t, r'⟩ := o
      rw [hs] at h
      simp only [Option.getD_some, Prod.mk.injEq] at h
      obtain ⟨rfl, rfl⟩ := h
      obtain ⟨c, s', rfl, rfl, hc, hd⟩ := someDigits_sound hs
      exact ⟨rfl, Or.inr ⟨c, s', rfl, hc, hd⟩⟩
  · simp only [Prod.mk.injEq] at h
    obtain ⟨rfl, rfl⟩ := h
    exact ⟨rfl, Or.inl rfl⟩

theorem scanExp_complete {e r : List Char} (h : ExpText e) (hr : NoDigit r) : scanExp (e ++ r) = (e, r) := by
  obtain ⟨x, s, c, t, rfl, hx, hs, hc, ht⟩ := h
  have hc1 : ¬ (c = '+' ∨ c = '-') := by
    rintro (rfl | rfl) <;> (unfold IsDigit at hc; revert hc; decide)
  rcases hs with rfl | rfl | rfl
  · show scanExp (x :: c :: (t ++ r)) = _
    unfold scanExp
    dsimp only
    rw [if_pos hx, if_neg hc1]
    have := someDigits_complete (pre := [x]) hc ht hr
    rw [List.cons_append] at this
    rw [this]; rfl
  · show scanExp (x :: '+' :: (c :: t ++ r)) = _
    unfold scanExp
    dsimp only
    rw [if_pos hx, if_pos (Or.inl rfl), someDigits_complete hc ht hr]; rfl
  · show scanExp (x :: '-' :: (c :: t ++ r)) = _
    unfold scanExp
    dsimp only
    rw [if_pos hx, if_pos (Or.inr rfl), someDigits_complete hc ht hr]; rfl

theorem scanExp_none {r : List Char} (hr : ∀ c ∈ r.head?, c ≠ 'e' ∧ c ≠ 'E') : scanExp r = ([], r) := by
  unfold scanExp
  split
  · rename_i e s
    have := hr e (by simp)
    rw [if_neg (by simpa using this)]
  · rfl

theorem scanExp_sound {l e r : List Char} (h : scanExp l = (e, r)) : l = e ++ r ∧ (e = [] ∨ ExpText e) := by
  have key : ∀ (pre s : List Char), l = pre ++ s → (someDigits pre s).getD ([], l) = (e, r) →
      (∀ c t, IsDigit c → (∀ d ∈ t, IsDigit d) → ExpText (pre ++ c :: t)) → l = e ++ r ∧ (e = [] ∨ ExpText e) := by
    intro pre s hl h hE
    cases hs : someDigits pre s with
    | none =>
      rw [hs] at h
      simp only [Option.getD_none, Prod.mk.injEq] at h
      obtain ⟨rfl, rfl⟩ := h
      exact ⟨rfl, Or.inl rfl⟩
    | some o =>
      obtain ⟨t, r'⟩ := o
      rw [hs] at h
      simp only [Option.getD_some, Prod.mk.injEq] at h
      obtain ⟨rfl, rfl⟩ := h
      obtain ⟨c, s', rfl, rfl, hc, hd⟩ := someDigits_sound hs
      exact ⟨by rw [hl]; simp, Or.inr (hE c s' hc hd)⟩
  have triv : ([], l) = (e, r) → l = e ++ r ∧ (e = [] ∨ ExpText e) := by
    intro h
    simp only [Prod.mk.injEq] at h
    obtain ⟨rfl, rfl⟩ := h
    exact ⟨rfl, Or.inl rfl⟩
  unfold scanExp at h
  split at h
  · rename_i x s
    split at h
    · rename_i hx
      split at h
      · rename_i y s
        split at h
        · rename_i hy
          refine key [x, y] s rfl h fun c t hc ht => ⟨x, [y], c, t, rfl, hx, ?_, hc, ht⟩
          rcases hy with rfl | rfl <;> simp
        · exact key [x] (y :: s) rfl h fun c t hc ht => ⟨x, [], c, t, rfl, hx, Or.inl rfl, hc, ht⟩
      · exact triv h
    · exact triv h
  · exact triv h

theorem fracText_head {f : List Char} (h : FracText f) (r : List Char) : ∀ c ∈ (f ++ r).head?, c = '.' := by
  obtain ⟨c, t, rfl, _⟩ := h
  intro d hd; simpa using hd.symm

theorem expText_head {e : List Char} (h : ExpText e) (r : List Char) : ∀ c ∈ (e ++ r).head?, c = 'e' ∨ c = 'E' := by
  obtain ⟨x, s, c, t, rfl, hx, _⟩ := h
  intro d hd
  have : x = d := by simpa using hd
  rw [← this]; exact hx

theorem scanNumber_int (pf : List Char → Option α) {t r : List Char} {n : ℤ} (h : IntText t n) (hr : NumFollow r) :
    scanNumber pf (t ++ r) = some (.int n, r) := by
  obtain ⟨h1, h2⟩ := scanInt_complete h hr.noDigit
  unfold scanNumber
  rw [h1]
  simp only [Option.bind_eq_bind, Option.bind_some]
  rw [scanFrac_none fun c hc => (hr c hc).2.1]
  dsimp only
  rw [scanExp_none fun c hc => (hr c hc).2.2]
  simp [h2]

theorem dot_not_digit : ¬ IsDigit '.' := by unfold IsDigit; decide
theorem e_not_digit : ¬ IsDigit 'e' ∧ ¬ IsDigit 'E' := by unfold IsDigit; decide

theorem scanNumber_real (pf : List Char → Option α) {t r : List Char} {x : α} (h : RealText t) (hx : pf t = some x)
    (hr : NumFollow r) : scanNumber pf (t ++ r) = some (.num x, r) := by
  obtain ⟨i, n, f, e, rfl, hi, hf, he, hne⟩ := h
  have he2 : ∀ c ∈ (e ++ r).head?, ¬ IsDigit c ∧ c ≠ '.' := by
    intro c hc
    rcases he with rfl | he
    · have := hr c hc; exact ⟨this.1, this.2.1⟩
    · rcases expText_head he r c hc with rfl | rfl
      · exact ⟨e_not_digit.1, by decide⟩
      · exact ⟨e_not_digit.2, by decide⟩
  have hf2 : NoDigit (f ++ (e ++ r)) := by
    intro c hc
    rcases hf with rfl | hf
    · exact (he2 c hc).1
    · rw [fracText_head hf _ c hc]; exact dot_not_digit
  obtain ⟨h1, _⟩ := scanInt_complete hi hf2
  have h2 : scanFrac (f ++ (e ++ r)) = (f, e ++ r) := by
    rcases hf with rfl | hf
    · exact scanFrac_none fun c hc => (he2 c hc).2
    · exact scanFrac_complete hf fun c hc => (he2 c hc).1
  have h3 : scanExp (e ++ r) = (e, r) := by
    rcases he with rfl | he
    · exact scanExp_none fun c hc => (hr c hc).2.2
    · exact scanExp_complete he hr.noDigit
  have e1 : i ++ f ++ e ++ r = i ++ (f ++ (e ++ r)) := by simp
  unfold scanNumber
  rw [e1, h1]
  simp only [Option.bind_eq_bind, Option.bind_some]
  rw [h2]
  dsimp only
  rw [h3]
  dsimp only
  rw [if_neg (by rintro ⟨rfl, rfl⟩; simp at hne), hx]
  rfl

theorem scanNumber_sound (pf : List Char → Option α) {l r : List Char} {j : Json α} (h : scanNumber pf l = some (j, r)) :
    ∃ t, l = t ++ r ∧ ValueText pf t j := by
  unfold scanNumber at h
  cases h1 : scanInt l with
  | none => simp [h1] at h
  | some o =>
    obtain ⟨i, r1⟩ := o
    rw [h1] at h
    simp only [Option.bind_eq_bind, Option.bind_some] at h
    cases h2 : scanFrac r1 with
    | mk f r2 =>
    rw [h2] at h
    dsimp only at h
    cases h3 : scanExp r2 with
    | mk e r3 =>
    rw [h3] at h
    dsimp only at h
    obtain ⟨rfl, hi⟩ := scanInt_sound h1
    obtain ⟨rfl, hf⟩ := scanFrac_sound h2
    obtain ⟨rfl, he⟩ := scanExp_sound h3
    split at h
    · rename_i hz
      obtain ⟨rfl, rfl⟩ := hz
      simp only [Option.pure_def, Option.some.injEq, Prod.mk.injEq] at h
      obtain ⟨rfl, rfl⟩ := h
      exact ⟨i, rfl, .int _ _ hi⟩
    · rename_i hz
      cases hx : pf (i ++ f ++ e) with
      | none => rw [hx] at h; simp at h
      | some x =>
        rw [hx] at h
        simp only [Option.pure_def, Option.bind_some, Option.some.injEq, Prod.mk.injEq] at h
        obtain ⟨rfl, rfl⟩ := h
        refine ⟨i ++ f ++ e, by simp, .num _ _ (Or.inl ⟨i, _, f, e, rfl, hi, hf, he, ?_⟩) hx⟩
        by_contra hcon
        push Not at hcon
        exact hz hcon

theorem scanWord_append (w r : List Char) : scanWord w (w ++ r) = some r := by
  unfold scanWord
  rw [if_pos (by simp)]
  simp

theorem scanWord_sound {w l r : List Char} (h : scanWord w l = some r) : l = w ++ r := by
  unfold scanWord at h
  split at h
  · rename_i hp
    simp only [Option.some.injEq] at h
    rw [List.isPrefixOf_iff_prefix] at hp
    obtain ⟨s, rfl⟩ := hp
    rw [← h]; simp
  · simp at h

theorem scanWord_head {a c : Char} {w r : List Char} (h : a ≠ c) : scanWord (a :: w) (c :: r) = none := by
  unfold scanWord
  rw [if_neg]
  simp [h]

/-- Atoms of the grammar are read. -/
theorem scanAtom_number (pf : List Char → Option α) {t r : List Char} {j : Json α} (hh : ∃ c s, t = c :: s ∧ (c = '-' ∨ IsDigit c))
    (hi : (scanInt (t ++ r)).isSome) (h : scanNumber pf (t ++ r) = some (j, r)) : scanAtom pf (t ++ r) = some (j, r) := by
  obtain ⟨c, s, rfl, hc⟩ := hh
  have hn : c ≠ 'n' ∧ c ≠ 't' ∧ c ≠ 'f' := by
    refine ⟨?_, ?_, ?_⟩ <;> rintro rfl <;> rcases hc with hc | hc <;> first | (exact absurd hc (by decide)) | (unfold IsDigit at hc; revert hc; decide)
  obtain ⟨o, ho⟩ := Option.isSome_iff_exists.mp hi
  unfold scanAtom
  rw [List.cons_append] at ho h ⊢
  rw [show scanWord "null".toList (c :: (s ++ r)) = none from scanWord_head (Ne.symm hn.1),
    show scanWord "true".toList (c :: (s ++ r)) = none from scanWord_head (Ne.symm hn.2.1),
    show scanWord "false".toList (c :: (s ++ r)) = none from scanWord_head (Ne.symm hn.2.2), ho]
  exact h

theorem scanAtom_sound (pf : List Char → Option α) {l r : List Char} {j : Json α} (h : scanAtom pf l = some (j, r)) :
    ∃ t, l = t ++ r ∧ ValueText pf t j := by
  unfold scanAtom at h
  split at h
  · rename_i r' hw
    simp only [Option.some.injEq, Prod.mk.injEq] at h
    obtain ⟨rfl, rfl⟩ := h
    exact ⟨_, scanWord_sound hw, .null⟩
  split at h
  · rename_i r' hw
    simp only [Option.some.injEq, Prod.mk.injEq] at h
    obtain ⟨rfl, rfl⟩ := h
    exact ⟨_, scanWord_sound hw, .true⟩
  split at h
  · rename_i r' hw
    simp only [Option.some.injEq, Prod.mk.injEq] at h
    obtain ⟨rfl, rfl⟩ := h
    exact ⟨_, scanWord_sound hw, .false⟩
  split at h
  · exact scanNumber_sound pf h
  split at h
  · rename_i r' hw
    rw [Option.map_eq_some_iff] at h
    obtain ⟨x, hx, h⟩ := h
    simp only [Prod.mk.injEq] at h
    obtain ⟨rfl, rfl⟩ := h
    exact ⟨_, scanWord_sound hw, .num _ _ (Or.inr (Or.inl rfl)) hx⟩
  split at h
  · rename_i r' hw
    rw [Option.map_eq_some_iff] at h
    obtain ⟨x, hx, h⟩ := h
    simp only [Prod.mk.injEq] at h
    obtain ⟨rfl, rfl⟩ := h
    exact ⟨_, scanWord_sound hw, .num _ _ (Or.inr (Or.inr (Or.inl rfl))) hx⟩
  split at h
  · rename_i r' hw
    rw [Option.map_eq_some_iff] at h
    obtain ⟨x, hx, h⟩ := h
    simp only [Prod.mk.injEq] at h
    obtain ⟨rfl, rfl⟩ := h
    exact ⟨_, scanWord_sound hw, .num _ _ (Or.inr (Or.inr (Or.inr rfl))) hx⟩
  · simp at h

theorem scanAtom_constant (pf : List Char → Option α) {t r : List Char} {x : α} (h : FloatConstant t) (hx : pf t = some x) :
    scanAtom pf (t ++ r) = some (.num x, r) := by
  rcases h with rfl | rfl | rfl
  · show scanAtom pf ('N' :: 'a' :: 'N' :: r) = _
    unfold scanAtom
    rw [show scanWord "null".toList ('N' :: 'a' :: 'N' :: r) = none from scanWord_head (by decide),
      show scanWord "true".toList ('N' :: 'a' :: 'N' :: r) = none from scanWord_head (by decide),
      show scanWord "false".toList ('N' :: 'a' :: 'N' :: r) = none from scanWord_head (by decide),
      show scanInt ('N' :: 'a' :: 'N' :: r) = none from rfl]
    dsimp only
    rw [show scanWord "NaN".toList ('N' :: 'a' :: 'N' :: r) = some r from scanWord_append _ r, hx]
    rfl
  · show scanAtom pf ('I' :: ("nfinity".toList ++ r)) = _
    unfold scanAtom
    rw [show scanWord "null".toList ('I' :: ("nfinity".toList ++ r)) = none from scanWord_head (by decide),
      show scanWord "true".toList ('I' :: ("nfinity".toList ++ r)) = none from scanWord_head (by decide),
      show scanWord "false".toList ('I' :: ("nfinity".toList ++ r)) = none from scanWord_head (by decide),
      show scanInt ('I' :: ("nfinity".toList ++ r)) = none from rfl,
      show scanWord "NaN".toList ('I' :: ("nfinity".toList ++ r)) = none from scanWord_head (by decide)]
    dsimp only
    rw [show scanWord "Infinity".toList ('I' :: ("nfinity".toList ++ r)) = some r from scanWord_append _ r, hx]
    rfl
  · show scanAtom pf ('-' :: ("Infinity".toList ++ r)) = _
    unfold scanAtom
    rw [show scanWord "null".toList ('-' :: ("Infinity".toList ++ r)) = none from scanWord_head (by decide),
      show scanWord "true".toList ('-' :: ("Infinity".toList ++ r)) = none from scanWord_head (by decide),
      show scanWord "false".toList ('-' :: ("Infinity".toList ++ r)) = none from scanWord_head (by decide),
      show scanInt ('-' :: ("Infinity".toList ++ r)) = none from rfl,
      show scanWord "NaN".toList ('-' :: ("Infinity".toList ++ r)) = none from scanWord_head (by decide),
      show scanWord "Infinity".toList ('-' :: ("Infinity".toList ++ r)) = none from scanWord_head (by decide)]
    dsimp only
    rw [show scanWord "-Infinity".toList ('-' :: ("Infinity".toList ++ r)) = some r from scanWord_append _ r, hx]
    rfl

theorem isJsonWs_iff (c : Char) : isJsonWs c = true ↔ (c = ' ' ∨ c = '\t' ∨ c = '\n' ∨ c = '\r') := by
  unfold isJsonWs
  simp [or_assoc]

theorem skipWs_append {w r : List Char} (hw : Ws w) (hr : ∀ c ∈ r.head?, isJsonWs c = false) : skipWs (w ++ r) = r :=
  (span_append (fun d hd => (isJsonWs_iff d).mpr (hw d hd)) hr).2

theorem skipWs_sound (l : List Char) : ∃ w, l = w ++ skipWs l ∧ Ws w :=
  ⟨l.takeWhile isJsonWs, (List.takeWhile_append_dropWhile).symm, fun c hc =>
    (isJsonWs_iff c).mp (List.all_eq_true.mp List.all_takeWhile c hc)⟩

theorem skipWs_head (l : List Char) : ∀ c ∈ (skipWs l).head?, isJsonWs c = false := by
  intro c hc
  unfold skipWs at hc
  cases h : l.dropWhile isJsonWs with
  | nil => rw [h] at hc; simp at hc
  | cons a r =>
    rw [h] at hc
    have : a = c := by simpa using hc
    subst this
    have := List.head_dropWhile_not (l := l) isJsonWs (by rw [h]; simp)
    simpa [h] using this

end PyFlowGo
