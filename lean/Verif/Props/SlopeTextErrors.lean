import Verif.Props.SlopeText
/-
  C73: how the readers of profile files fail.
-/
set_option linter.unusedSectionVars false
namespace PyFlowGo
open Spec
variable {α : Type} [Add α] [Sub α] [Mul α] [Neg α] [OfScientific α] [PyNum α]

theorem floatField_error_iff {pf : List Char → Option α} {r : List (List Char)} {i : Nat} {e : Err} :
    floatField pf r i = .error e ↔ (r[i]? = none ∧ e = .indexError ∨ ∃ f, r[i]? = some f ∧ pf f = none ∧ e = .valueError) := by
  unfold floatField
  cases hr : r[i]? with
  | none => simp [eq_comm]
  | some f => cases hp : pf f <;> simp [hp, eq_comm]

theorem isNumber_iff {pf : List Char → Option α} {r : List (List Char)} {i : Nat} :
    IsNumber pf r i ↔ ∃ x, floatField pf r i = .ok x := by
  unfold IsNumber
  simp only [floatField_ok_iff]
  exact ⟨fun ⟨f, x, h⟩ => ⟨x, f, h⟩, fun ⟨x, f, h⟩ => ⟨f, x, h⟩⟩

theorem fieldFails_nil {pf : List Char → Option α} {r : List (List Char)} {e : Err} : ¬ FieldFails pf r [] e := by
  rintro ⟨pre, c, post, h, _⟩
  cases pre <;> cases h

theorem fieldFails_cons {pf : List Char → Option α} {r : List (List Char)} {i : Nat} {cs : List Nat} {e : Err} :
    FieldFails pf r (i :: cs) e ↔ floatField pf r i = .error e ∨ (IsNumber pf r i ∧ FieldFails pf r cs e) := by
  rw [floatField_error_iff]
  constructor
  · rintro ⟨pre, c, post, h1, h2, h3⟩
    cases pre with
    | nil =>
      rw [List.nil_append, List.cons.injEq] at h1
      obtain ⟨rfl, rfl⟩ := h1
      exact Or.inl h3
    | cons p pre =>
      rw [List.cons_append, List.cons.injEq] at h1
      obtain ⟨rfl, rfl⟩ := h1
      exact Or.inr ⟨h2 _ (by simp), pre, c, post, rfl, fun k hk => h2 k (List.mem_cons_of_mem _ hk), h3⟩
  · rintro (h | ⟨hi, pre, c, post, h1, h2, h3⟩)
    · exact ⟨[], i, cs, rfl, by simp, h⟩
    · refine ⟨i :: pre, c, post, by rw [h1]; rfl, ?_, h3⟩
      intro k hk
      rcases List.mem_cons.mp hk with rfl | hk
      · exact hi
      · exact h2 k hk

/-- Reading the field `i` and going on. -/
theorem field_step {β : Type} {pf : List Char → Option α} {r : List (List Char)} {i : Nat} {cs : List Nat} {e : Err}
    {f : α → Except Err β} {Q : Prop} (hf : ∀ x, floatField pf r i = .ok x → (f x = .error e ↔ FieldFails pf r cs e ∨ Q)) (hQ : Q → IsNumber pf r i) :
    (floatField pf r i >>= f) = .error e ↔ FieldFails pf r (i :: cs) e ∨ Q := by
  rw [bind_error_iff, fieldFails_cons]
  constructor
  · rintro (h | ⟨x, h1, h2⟩)
    · exact Or.inl (Or.inl h)
    · rcases (hf x h1).mp h2 with h | h
      · exact Or.inl (Or.inr ⟨isNumber_iff.mpr ⟨x, h1⟩, h⟩)
      · exact Or.inr h
  · rintro ((h | ⟨h1, h2⟩) | h)
    · exact Or.inl h
    · obtain ⟨x, hx⟩ := isNumber_iff.mp h1
      exact Or.inr ⟨x, hx, (hf x hx).mpr (Or.inl h2)⟩
    · obtain ⟨x, hx⟩ := isNumber_iff.mp (hQ h)
      exact Or.inr ⟨x, hx, (hf x hx).mpr (Or.inr h)⟩

/-- The first line that fails. -/
def FirstBad {β : Type} (good : β → Prop) (bad : β → Err → Prop) (rows : List β) (e : Err) : Prop :=
  ∃ pre r post, rows = pre ++ r :: post ∧ (∀ x ∈ pre, good x) ∧ bad r e

theorem firstBad_nil {β : Type} {good : β → Prop} {bad : β → Err → Prop} {e : Err} : ¬ FirstBad good bad [] e := by
  rintro ⟨pre, c, post, h, _⟩
  cases pre <;> cases h

theorem firstBad_cons {β : Type} {good : β → Prop} {bad : β → Err → Prop} {r : β} {rows : List β} {e : Err} :
    FirstBad good bad (r :: rows) e ↔ bad r e ∨ (good r ∧ FirstBad good bad rows e) := by
  constructor
  · rintro ⟨pre, c, post, h1, h2, h3⟩
    cases pre with
    | nil =>
      rw [List.nil_append, List.cons.injEq] at h1
      obtain ⟨rfl, rfl⟩ := h1
      exact Or.inl h3
    | cons p pre =>
      rw [List.cons_append, List.cons.injEq] at h1
      obtain ⟨rfl, rfl⟩ := h1
      exact Or.inr ⟨h2 _ (by simp), pre, c, post, rfl, fun k hk => h2 k (List.mem_cons_of_mem _ hk), h3⟩
  · rintro (h | ⟨hi, pre, c, post, h1, h2, h3⟩)
    · exact ⟨[], r, rows, rfl, by simp, h⟩
    · refine ⟨r :: pre, c, post, by rw [h1]; rfl, ?_, h3⟩
      intro k hk
      rcases List.mem_cons.mp hk with rfl | hk
      · exact hi
      · exact h2 k hk

/-- **C73**, failures of the field crust profile: at the first line whose first two fields are not numbers, with the
    error of the first such field. -/
theorem C73_crust_failures (pf : List Char → Option α) (rows : List (List (List Char))) (e : Err) :
    crustRows pf rows = .error e ↔ ∃ pre r post, rows = pre ++ r :: post ∧
      (∀ x ∈ pre, IsNumber pf x 0 ∧ IsNumber pf x 1) ∧ FieldFails pf r [0, 1] e := by
  show _ ↔ FirstBad _ _ rows e
  induction rows with
  | nil => exact ⟨(fun h => by cases h), fun h => absurd h firstBad_nil⟩
  | cons r rows ih =>
    rw [firstBad_cons, crustRows, ← ih]
    refine (field_step (cs := [1]) (Q := (IsNumber pf r 0 ∧ IsNumber pf r 1) ∧ crustRows pf rows = .error e)
      (fun d hd => ?_) (fun h => h.1.1)).trans Iff.rfl
    refine field_step (fun t ht => ?_) (fun h => h.1.2)
    have h0 := isNumber_iff.mpr ⟨d, hd⟩
    have h1 := isNumber_iff.mpr ⟨t, ht⟩
    rw [bind_error_iff]
    constructor
    · rintro (h | ⟨_, _, h⟩)
      · exact Or.inr ⟨⟨h0, h1⟩, h⟩
      · cases h
    · rintro (h | h)
      · exact absurd h fieldFails_nil
      · exact Or.inl h.2

/-- **C73**, failures of the plotted profile: at the first line whose fourth, fifth and third fields are not numbers,
    with the error of the first such field in this order. -/
theorem C73_plot_failures (pf : List Char → Option α) (rows : List (List (List Char))) (e : Err) :
    plotRows pf rows = .error e ↔ ∃ pre r post, rows = pre ++ r :: post ∧
      (∀ x ∈ pre, IsNumber pf x 3 ∧ IsNumber pf x 4 ∧ IsNumber pf x 2) ∧ FieldFails pf r [3, 4, 2] e := by
  show _ ↔ FirstBad _ _ rows e
  induction rows with
  | nil => exact ⟨(fun h => by cases h), fun h => absurd h firstBad_nil⟩
  | cons r rows ih =>
    rw [firstBad_cons, plotRows, ← ih]
    refine (field_step (cs := [4, 2]) (Q := (IsNumber pf r 3 ∧ IsNumber pf r 4 ∧ IsNumber pf r 2) ∧ plotRows pf rows = .error e)
      (fun d hd => ?_) (fun h => h.1.1)).trans Iff.rfl
    refine field_step (fun t ht => ?_) (fun h => h.1.2.1)
    refine field_step (fun u hu => ?_) (fun h => h.1.2.2)
    have h0 := isNumber_iff.mpr ⟨d, hd⟩
    have h1 := isNumber_iff.mpr ⟨t, ht⟩
    have h2 := isNumber_iff.mpr ⟨u, hu⟩
    rw [bind_error_iff]
    constructor
    · rintro (h | ⟨_, _, h⟩)
      · exact Or.inr ⟨⟨h0, h1, h2⟩, h⟩
      · cases h
    · rintro (h | h)
      · exact absurd h fieldFails_nil
      · exact Or.inl h.2

theorem lineGives_exists {pf : List Char → Option α} {r : List (List Char)} :
    (∃ o, LineGives pf r o) ↔ ∃ s, floatField pf r 4 = .ok s ∧
      (leB s 0.1 = true ∨ (IsNumber pf r 3 ∧ IsNumber pf r 2 ∧ IsNumber pf r 0 ∧ IsNumber pf r 1)) := by
  constructor
  · rintro ⟨_ | l, h⟩
    · obtain ⟨f, s, h1, h2, h3⟩ := h
      exact ⟨s, floatField_ok_iff.mpr ⟨f, h1, h2⟩, Or.inl h3⟩
    · obtain ⟨h, _⟩ := h
      obtain ⟨h0, h1, h2, h3, h4⟩ := rowIs_fields h
      exact ⟨_, h4, Or.inr ⟨isNumber_iff.mpr ⟨_, h3⟩, isNumber_iff.mpr ⟨_, h2⟩, isNumber_iff.mpr ⟨_, h0⟩, isNumber_iff.mpr ⟨_, h1⟩⟩⟩
  · rintro ⟨s, hs, h⟩
    by_cases hc : leB s 0.1 = true
    · obtain ⟨f, h1, h2⟩ := floatField_ok_iff.mp hs
      exact ⟨none, f, s, h1, h2, hc⟩
    · have h := h.resolve_left hc
      obtain ⟨⟨f3, x3, a3, b3⟩, ⟨f2, x2, a2, b2⟩, ⟨f0, x0, a0, b0⟩, ⟨f1, x1, a1, b1⟩⟩ := h
      obtain ⟨f4, a4, b4⟩ := floatField_ok_iff.mp hs
      refine ⟨some ⟨x0, x1, x2, x3, s⟩, ?_, by simpa using hc⟩
      rcases r with _ | ⟨f0', _ | ⟨f1', _ | ⟨f2', _ | ⟨f3', _ | ⟨f4', r'⟩⟩⟩⟩⟩
      iterate 5 · simp at a4
      · simp only [List.getElem?_cons_zero, List.getElem?_cons_succ, Option.some.injEq] at a0 a1 a2 a3 a4
        subst a0 a1 a2 a3 a4
        simp [RowIs, b0, b1, b2, b3, b4]

/-- **C73**, failures of the slope profile: at the first line that is neither skipped nor a complete sample; an IndexError
    if the line has fewer than five fields and a ValueError otherwise. -/
theorem C73_slope_failures (pf : List Char → Option α) (rows : List (List (List Char))) (e : Err) :
    slopeRows pf rows = .error e ↔ ∃ pre r post, rows = pre ++ r :: post ∧
      (∀ x ∈ pre, ∃ o, LineGives pf x o) ∧ (∀ o, ¬ LineGives pf r o) ∧
      e = if r.length < 5 then .indexError else .valueError := by
  show _ ↔ FirstBad (fun x => ∃ o, LineGives pf x o) (fun r e => (∀ o, ¬ LineGives pf r o) ∧
      e = if r.length < 5 then .indexError else .valueError) rows e
  induction rows with
  | nil => exact ⟨(fun h => by cases h), fun h => absurd h firstBad_nil⟩
  | cons r rows ih =>
    rw [firstBad_cons, ← ih, slopeRows, ← not_exists, lineGives_exists]
    cases h4 : floatField pf r 4 with
    | error e4 =>
      rw [error_bind]
      simp only [reduceCtorEq, false_and, exists_false, not_false_eq_true, true_and, or_false, Except.error.injEq]
      rcases floatField_error_iff.mp h4 with ⟨hn, rfl⟩ | ⟨f, hf, _, rfl⟩
      · have : r.length < 5 := by have := List.getElem?_eq_none_iff.mp hn; omega
        rw [if_pos this]; exact eq_comm
      · have : ¬ r.length < 5 := by
          intro hl; rw [List.getElem?_eq_none (by omega)] at hf; cases hf
        rw [if_neg this]; exact eq_comm
    | ok s =>
      have hlen : ¬ r.length < 5 := by
        intro hl
        obtain ⟨f, hf, _⟩ := floatField_ok_iff.mp h4
        rw [List.getElem?_eq_none (by omega)] at hf; cases hf
      rw [ok_bind, if_neg hlen]
      simp only [Except.ok.injEq, exists_eq_left']
      by_cases hc : leB s 0.1 = true
      · rw [if_pos hc]; simp [hc]
      · rw [if_neg hc]
        simp only [hc, false_or, Bool.false_eq_true]
        have key := field_step (cs := [2, 0, 1]) (e := e) (β := List (SlopeLine α))
          (Q := (IsNumber pf r 3 ∧ IsNumber pf r 2 ∧ IsNumber pf r 0 ∧ IsNumber pf r 1) ∧ slopeRows pf rows = .error e)
          (f := fun d => do
            let e ← floatField pf r 2
            let a ← floatField pf r 0
            let o ← floatField pf r 1
            let rows ← slopeRows pf rows
            return { lat := a, lon := o, elev := e, dist := d, slopeDeg := s } :: rows)
          (fun d hd => by
            refine field_step (fun t ht => ?_) (fun h => h.1.2.1)
            refine field_step (fun u hu => ?_) (fun h => h.1.2.2.1)
            refine field_step (fun v hv => ?_) (fun h => h.1.2.2.2)
            rw [bind_error_iff]
            constructor
            · rintro (h | ⟨_, _, h⟩)
              · exact Or.inr ⟨⟨isNumber_iff.mpr ⟨d, hd⟩, isNumber_iff.mpr ⟨t, ht⟩, isNumber_iff.mpr ⟨u, hu⟩, isNumber_iff.mpr ⟨v, hv⟩⟩, h⟩
              · cases h
            · rintro (h | h)
              · exact absurd h fieldFails_nil
              · exact Or.inl h.2) (fun h => h.1.1)
        refine key.trans (or_congr ?_ Iff.rfl)
        have hval : ∀ i, i < 5 → ∀ e', floatField pf r i = .error e' → e' = .valueError := by
          intro i hi e' he
          rcases floatField_error_iff.mp he with ⟨hn, _⟩ | ⟨f, _, _, h⟩
          · have := List.getElem?_eq_none_iff.mp hn; omega
          · exact h
        have hdec : ∀ i, i < 5 → (¬ IsNumber pf r i ↔ floatField pf r i = .error .valueError) := by
          intro i hi
          rw [isNumber_iff]
          cases h : floatField pf r i with
          | error e' => rw [hval i hi e' h]; simp
          | ok x => simp
        have hex : ∀ i, i < 5 → ∀ e', (floatField pf r i = .error e' ↔ ¬ IsNumber pf r i ∧ e' = .valueError) := by
          intro i hi e'
          constructor
          · intro h; have := hval i hi e' h; subst this; exact ⟨(hdec i hi).mpr h, rfl⟩
          · rintro ⟨h, rfl⟩; exact (hdec i hi).mp h
        simp only [fieldFails_cons, hex 3 (by omega), hex 2 (by omega), hex 0 (by omega), hex 1 (by omega), fieldFails_nil]
        tauto

/-- **C73**: the same for the terrain. -/
theorem C73_terrain_failures (pf : List Char → Option α) (t : Terrain α) (text : List Char) (pre : List (List (List Char)))
    (r : List (List Char)) (post : List (List (List Char))) (h : dataLines text = pre ++ r :: post)
    (hpre : ∀ x ∈ pre, ∃ o, LineGives pf x o) (hr : ∀ o, ¬ LineGives pf r o) :
    t.readSlopeText pf text = .error (if r.length < 5 then .indexError else .valueError) := by
  unfold Terrain.readSlopeText
  rw [(C73_slope_failures pf _ _).mpr ⟨pre, r, post, h, hpre, hr, rfl⟩, error_bind]

/-- A blank line between two samples of a profile file is an IndexError, a word in the slope column a ValueError. -/
example (t : Terrain ℝ) (pf : List Char → Option ℝ) (h1 : pf ['1'] = some 1) (hx : pf ['x'] = none) :
    t.readSlopeText pf "L\n1\t1\t1\t1\t1\n\n1\t1\t1\t1\t1\n".toList = .error .indexError ∧
    t.readSlopeText pf "L\n1\t1\t1\t1\t1\n1\t1\t1\t1\tx\n".toList = .error .valueError := by
  have hg : ∃ o, LineGives pf [['1'], ['1'], ['1'], ['1'], ['1']] o :=
    ⟨some ⟨1, 1, 1, 1, 1⟩, by simp [RowIs, h1], by rw [Bool.eq_false_iff, ne_eq, leB_real]; norm_num⟩
  constructor
  · refine C73_terrain_failures pf t _ [[['1'], ['1'], ['1'], ['1'], ['1']]] [[]] [[['1'], ['1'], ['1'], ['1'], ['1']]] (by decide) ?_ ?_
    · intro x hx; rw [List.mem_singleton] at hx; rw [hx]; exact hg
    · rintro (_ | l) h
      · obtain ⟨f, s, h, _⟩ := h; simp at h
      · obtain ⟨h, _⟩ := h; simp [RowIs] at h
  · refine C73_terrain_failures pf t _ [[['1'], ['1'], ['1'], ['1'], ['1']]] [['1'], ['1'], ['1'], ['1'], ['x']] [] (by decide) ?_ ?_
    · intro x hx; rw [List.mem_singleton] at hx; rw [hx]; exact hg
    · rintro (_ | l) h
      · obtain ⟨f, s, h, h2, _⟩ := h
        simp only [List.getElem?_cons_zero, List.getElem?_cons_succ, Option.some.injEq] at h
        rw [← h, hx] at h2; cases h2
      · obtain ⟨h, _⟩ := h; simp [RowIs, hx] at h

end PyFlowGo
