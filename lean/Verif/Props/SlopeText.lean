import Verif.Proofs.TextLemmas
import Verif.Model.RealNum
/-
  C73: profile files as text.
-/
set_option linter.unusedSectionVars false
namespace PyFlowGo
open Spec
variable {α : Type} [Add α] [Sub α] [Mul α] [Neg α] [OfScientific α] [PyNum α]

theorem floatField_of {pf : List Char → Option α} {r : List (List Char)} {i : Nat} {x : α}
    (h : (r[i]?).bind pf = some x) : floatField pf r i = .ok x := by
  unfold floatField
  cases hr : r[i]? with
  | none => rw [hr] at h; cases h
  | some f => rw [hr, Option.bind_some] at h; dsimp only; rw [h]

theorem floatField_ok_iff {pf : List Char → Option α} {r : List (List Char)} {i : Nat} {x : α} :
    floatField pf r i = .ok x ↔ ∃ f, r[i]? = some f ∧ pf f = some x := by
  unfold floatField
  cases hr : r[i]? with
  | none => simp
  | some f => cases hp : pf f <;> simp [hp]

theorem rowIs_fields {pf : List Char → Option α} {r : List (List Char)} {l : SlopeLine α} (h : RowIs pf r l) :
    floatField pf r 0 = .ok l.lat ∧ floatField pf r 1 = .ok l.lon ∧ floatField pf r 2 = .ok l.elev ∧
      floatField pf r 3 = .ok l.dist ∧ floatField pf r 4 = .ok l.slopeDeg := by
  unfold RowIs at h
  match r, h with
  | [], h => simp at h
  | [a], h => simp at h
  | [a, b], h => simp at h
  | [a, b, c], h => simp at h
  | [a, b, c, d], h => simp at h
  | a :: b :: c :: d :: e :: r, h =>
    simp only [List.take_succ_cons, List.take_zero, List.map_cons, List.map_nil, List.cons.injEq, and_true] at h
    obtain ⟨h1, h2, h3, h4, h5⟩ := h
    exact ⟨floatField_of h1, floatField_of h2, floatField_of h3, floatField_of h4, floatField_of h5⟩

theorem slopeRows_of {pf : List Char → Option α} {rows : List (List (List Char))} {ls : List (SlopeLine α)}
    (h : List.Forall₂ (RowIs pf) rows ls) : slopeRows pf rows = .ok (keepSlopeLines ls) := by
  induction h with
  | nil => rfl
  | @cons r l rows ls hr _ ih =>
    obtain ⟨h0, h1, h2, h3, h4⟩ := rowIs_fields hr
    rw [slopeRows, h4, ok_bind, ih, h3, h2, h0, h1]
    simp only [ok_bind, keepSlopeLines, List.filter_cons]
    by_cases hc : leB l.slopeDeg 0.1 = true
    · simp [hc]
    · simp only [Bool.not_eq_true] at hc
      simp [hc, pure_eq_ok]

/-- **C73**. A profile file written by hand or by a spreadsheet -- a header line, then one line per sample, five or more
    tab-separated columns, any of the three line endings, with or without an end-of-line after the last line -- gives the
    terrain exactly the samples of its rows. -/
theorem C73_profile_reads_back (pf : List Char → Option α) (t : Terrain α) (e : Eol) (final : Bool) (header : List Char)
    (hh : OneLine header) (rows : List (List (List Char))) (ls : List (SlopeLine α)) (hr : ∀ r ∈ rows, CleanRow r)
    (hls : List.Forall₂ (RowIs pf) rows ls) (hlast : final = true ∨ rows ≠ []) :
    t.readSlopeText pf (tabFile e final header rows) = t.readSlope ls := by
  have hd : dataLines (tabFile e final header rows) = rows := by
    refine dataLines_tabFile e final header hh rows hr ?_
    rcases hlast with h | h
    · exact Or.inl h
    · right
      intro l hl
      have h5 : ∀ r ∈ rows, tabLine r ≠ [] := by
        intro r hr'
        obtain ⟨l, hl⟩ : ∃ l, RowIs pf r l := by
          clear hl hr h
          induction hls with
          | nil => cases hr'
          | cons a _ ih =>
            rcases List.mem_cons.mp hr' with rfl | hr'
            · exact ⟨_, a⟩
            · exact ih hr'
        match r, hl with
        | [], hl => simp [RowIs] at hl
        | [a], hl => simp [RowIs] at hl
        | a :: b :: r, _ => simp [tabLine]
      obtain ⟨r, hr'⟩ := List.getLast?_isSome.mpr h |> Option.isSome_iff_exists.mp
      have : (header :: rows.map tabLine).getLast? = some (tabLine r) := by
        have hm : (rows.map tabLine).getLast? = some (tabLine r) := by rw [List.getLast?_map, hr']; rfl
        cases hrm : rows.map tabLine with
        | nil => rw [hrm] at hm; cases hm
        | cons x xs => rw [List.getLast?_cons_cons, ← hrm, hm]
      rw [this] at hl
      cases hl
      exact h5 r (List.mem_of_getLast? hr')
  unfold Terrain.readSlopeText Terrain.readSlope
  rw [hd, slopeRows_of hls, ok_bind]

/-- **C73**. The lines are accepted exactly when each is skipped or a complete sample, and the samples are kept in
    order. -/
theorem C73_profile_lines (pf : List Char → Option α) (rows : List (List (List Char))) (ls : List (SlopeLine α)) :
    slopeRows pf rows = .ok ls ↔ ∃ os, List.Forall₂ (LineGives pf) rows os ∧ ls = os.filterMap id := by
  induction rows generalizing ls with
  | nil =>
    constructor
    · intro h; rw [slopeRows, Except.ok.injEq] at h; exact ⟨[], .nil, by rw [← h]; rfl⟩
    · rintro ⟨os, h, rfl⟩; cases h; rfl
  | cons r rows ih =>
    constructor
    · intro h
      rw [slopeRows] at h
      obtain ⟨s, h4, h⟩ := bind_ok_iff.mp h
      obtain ⟨f4, e4, p4⟩ := floatField_ok_iff.mp h4
      by_cases hc : leB s 0.1 = true
      · rw [if_pos hc] at h
        obtain ⟨os, ho, rfl⟩ := (ih ls).mp h
        exact ⟨none :: os, .cons ⟨f4, s, e4, p4, hc⟩ ho, rfl⟩
      · rw [if_neg hc] at h
        obtain ⟨d, h3, h⟩ := bind_ok_iff.mp h
        obtain ⟨e, h2, h⟩ := bind_ok_iff.mp h
        obtain ⟨a, h0, h⟩ := bind_ok_iff.mp h
        obtain ⟨o, h1, h⟩ := bind_ok_iff.mp h
        obtain ⟨ls', h', h⟩ := bind_ok_iff.mp h
        rw [pure_ok_iff] at h
        obtain ⟨os, ho, rfl⟩ := (ih ls').mp h'
        refine ⟨some ⟨a, o, e, d, s⟩ :: os, .cons ⟨?_, by simpa using hc⟩ ho, by rw [← h]; rfl⟩
        obtain ⟨f3, e3, p3⟩ := floatField_ok_iff.mp h3
        obtain ⟨f2, e2, p2⟩ := floatField_ok_iff.mp h2
        obtain ⟨f0, e0, p0⟩ := floatField_ok_iff.mp h0
        obtain ⟨f1, e1, p1⟩ := floatField_ok_iff.mp h1
        match r, e4, e3, e2, e1, e0 with
        | x0 :: x1 :: x2 :: x3 :: x4 :: r, e4, e3, e2, e1, e0 =>
          simp only [List.getElem?_cons_succ, List.getElem?_cons_zero, Option.some.injEq] at e4 e3 e2 e1 e0
          subst e4 e3 e2 e1 e0
          simp [RowIs, p0, p1, p2, p3, p4]
    · rintro ⟨os, ho, rfl⟩
      obtain _ | ⟨h1, h2⟩ := ho
      rename_i o os
      have := (ih _).mpr ⟨os, h2, rfl⟩
      cases o with
      | none =>
        obtain ⟨f, s, a, b, c⟩ := h1
        rw [slopeRows, floatField_ok_iff.mpr ⟨f, a, b⟩, ok_bind, if_pos c, this]
        rfl
      | some l =>
        obtain ⟨hr, hc⟩ := h1
        obtain ⟨a0, a1, a2, a3, a4⟩ := rowIs_fields hr
        rw [slopeRows, a4, ok_bind, if_neg (by rw [hc]; simp), a3, a2, a0, a1, this]
        rfl

/-- **C73**. A line with fewer than five columns -- a blank line, also a blank last line, for instance -- makes the
    terrain unreadable, and the profile impossible to draw. -/
theorem C73_short_line_is_fatal (pf : List Char → Option α) (t T : Terrain α) (text : List Char)
    (r : List (List Char)) (hr : r ∈ dataLines text) (hlen : r.length < 5) :
    t.readSlopeText pf text ≠ .ok T ∧ ∀ rows, plotRows pf (dataLines text) ≠ .ok rows := by
  constructor
  · intro h
    unfold Terrain.readSlopeText at h
    obtain ⟨ls, h, _⟩ := bind_ok_iff.mp h
    obtain ⟨os, ho, h2⟩ := (C73_profile_lines pf _ _).mp h
    clear h h2
    generalize dataLines text = rows at hr ho
    induction ho with
    | nil => cases hr
    | @cons r' o rows os h1 _ ih =>
      rcases List.mem_cons.mp hr with rfl | hr
      · cases o with
        | none =>
          obtain ⟨f, s, a, _⟩ := h1
          rw [List.getElem?_eq_none (by omega)] at a; cases a
        | some l =>
          have := (rowIs_fields h1.1).2.2.2.2
          obtain ⟨f, a, _⟩ := floatField_ok_iff.mp this
          rw [List.getElem?_eq_none (by omega)] at a; cases a
      · exact ih hr
  · intro out h
    generalize dataLines text = rows at hr h
    induction rows generalizing out with
    | nil => cases hr
    | cons r' rows ih =>
      rw [plotRows] at h
      obtain ⟨d, _, h⟩ := bind_ok_iff.mp h
      obtain ⟨s, h4, h⟩ := bind_ok_iff.mp h
      obtain ⟨e, _, h⟩ := bind_ok_iff.mp h
      obtain ⟨out', h', _⟩ := bind_ok_iff.mp h
      rcases List.mem_cons.mp hr with rfl | hr
      · obtain ⟨f, a, _⟩ := floatField_ok_iff.mp h4
        rw [List.getElem?_eq_none (by omega)] at a; cases a
      · exact ih _ hr h'

/-- **C73**: a blank line is such a line: one more end-of-line after a complete file. -/
theorem C73_trailing_blank_line (pf : List Char → Option α) (t T : Terrain α) (e : Eol) (header : List Char)
    (hh : OneLine header) (rows : List (List (List Char))) (hr : ∀ r ∈ rows, CleanRow r) :
    t.readSlopeText pf (tabFile e true header (rows ++ [[[]]])) ≠ .ok T := by
  have hc : ∀ r ∈ rows ++ [[[]]], CleanRow r := by
    intro r h
    rcases List.mem_append.mp h with h | h
    · exact hr r h
    · rw [List.mem_singleton.mp h]
      exact ⟨by simp, fun f hf => by rw [List.mem_singleton.mp hf]; exact ⟨by simp, by simp, by simp⟩⟩
  refine (C73_short_line_is_fatal pf t T _ [[]] ?_ (by simp)).1
  rw [dataLines_tabFile e true header hh _ hc (Or.inl rfl)]
  simp

theorem runOutRows_of {pf : List Char → Option α} {rows : List (List (List Char))} {ls : List (SlopeLine α)} (limit : α)
    (h : List.Forall₂ (RowIs pf) rows ls) :
    runOutRows pf limit rows = .ok ((ls.filter fun l => leB l.dist limit).map fun l => (l.lat, l.lon, l.elev, l.dist)) := by
  induction h with
  | nil => rfl
  | @cons r l rows ls hr _ ih =>
    obtain ⟨h0, h1, h2, h3, h4⟩ := rowIs_fields hr
    rw [runOutRows, h3, ok_bind, ih, h2, h0, h1]
    simp only [ok_bind, List.filter_cons]
    by_cases hc : leB l.dist limit = true
    · simp [hc, pure_eq_ok]
    · simp only [Bool.not_eq_true] at hc
      simp [hc]

theorem plotRows_of {pf : List Char → Option α} {rows : List (List (List Char))} {ls : List (SlopeLine α)}
    (h : List.Forall₂ (RowIs pf) rows ls) : plotRows pf rows = .ok (ls.map fun l => (l.dist, l.slopeDeg, l.elev)) := by
  induction h with
  | nil => rfl
  | cons hr _ ih =>
    obtain ⟨h0, h1, h2, h3, h4⟩ := rowIs_fields hr
    rw [plotRows, h3, h4, h2, ih]
    rfl

/-- **C73**. The run-out table and the plots read the same samples from the same file: up to the limit distance, and all
    of them, including the flat ones the terrain drops. -/
theorem C73_same_samples (pf : List Char → Option α) (e : Eol) (header : List Char) (hh : OneLine header)
    (rows : List (List (List Char))) (ls : List (SlopeLine α)) (hr : ∀ r ∈ rows, CleanRow r)
    (hls : List.Forall₂ (RowIs pf) rows ls) (limit : α) :
    runOutRows pf limit (dataLines (tabFile e true header rows)) =
        .ok ((ls.filter fun l => leB l.dist limit).map fun l => (l.lat, l.lon, l.elev, l.dist)) ∧
    plotRows pf (dataLines (tabFile e true header rows)) = .ok (ls.map fun l => (l.dist, l.slopeDeg, l.elev)) ∧
    slopeRows pf (dataLines (tabFile e true header rows)) = .ok (keepSlopeLines ls) := by
  rw [dataLines_tabFile e true header hh rows hr (Or.inl rfl)]
  exact ⟨runOutRows_of limit hls, plotRows_of hls, slopeRows_of hls⟩

/-- **C73**. The field crust profile: the first two columns of every line are distance and temperature. -/
theorem C73_crust_profile (pf : List Char → Option α) (e : Eol) (header : List Char) (hh : OneLine header)
    (rows : List (List (List Char))) (hr : ∀ r ∈ rows, CleanRow r) (out : List (α × α)) :
    crustRows pf (dataLines (tabFile e true header rows)) = .ok out ↔
      List.Forall₂ (fun r (p : α × α) => ∃ f g d T, r[0]? = some f ∧ r[1]? = some g ∧ pf f = some d ∧ pf g = some T ∧
        p = (d, T)) rows out := by
  rw [dataLines_tabFile e true header hh rows hr (Or.inl rfl)]
  clear hr
  induction rows generalizing out with
  | nil =>
    rw [crustRows, Except.ok.injEq]
    constructor
    · rintro rfl; exact .nil
    · intro h; cases h; rfl
  | cons r rows ih =>
    rw [crustRows]
    constructor
    · intro h
      obtain ⟨d, h0, h⟩ := bind_ok_iff.mp h
      obtain ⟨T, h1, h⟩ := bind_ok_iff.mp h
      obtain ⟨rest, h', h⟩ := bind_ok_iff.mp h
      rw [pure_ok_iff] at h
      subst h
      obtain ⟨f, a, b⟩ := floatField_ok_iff.mp h0
      obtain ⟨g, c, e⟩ := floatField_ok_iff.mp h1
      exact .cons ⟨f, g, d, T, a, c, b, e, rfl⟩ ((ih _).mp h')
    · intro h
      obtain _ | ⟨h1, h2⟩ := h
      obtain ⟨f, g, d, T, a, b, c, e, rfl⟩ := h1
      rw [floatField_ok_iff.mpr ⟨f, a, c⟩, floatField_ok_iff.mpr ⟨g, b, e⟩, (ih _).mpr h2]
      rfl

/-- **C73**: a file with two samples, windows line endings and no final end-of-line meets the hypotheses (numbers read
    by a table). -/
example : ∃ (pf : List Char → Option ℝ) (header : List Char) (rows : List (List (List Char))) (ls : List (SlopeLine ℝ)),
    OneLine header ∧ (∀ r ∈ rows, CleanRow r) ∧ List.Forall₂ (RowIs pf) rows ls ∧ rows.length = 2 ∧
    tabFile .crlf false header rows = "L\r\n1\t2\t3\t0\t5\tx\r\n1\t2\t3\t4\t5".toList := by
  refine ⟨fun f => match f with
      | ['0'] => some 0 | ['1'] => some 1 | ['2'] => some 2 | ['3'] => some 3 | ['4'] => some 4 | ['5'] => some 5
      | _ => none,
    ['L'], [[['1'], ['2'], ['3'], ['0'], ['5'], ['x']], [['1'], ['2'], ['3'], ['4'], ['5']]],
    [⟨1, 2, 3, 0, 5⟩, ⟨1, 2, 3, 4, 5⟩], ?_, ?_, ?_, rfl, ?_⟩
  · simp [OneLine]
  · simp [CleanRow, OneLine]
  · exact .cons rfl (.cons rfl .nil)
  · decide

end PyFlowGo
