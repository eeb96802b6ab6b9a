import Verif.Model.CsvText
import Verif.Proofs.TextLemmas
/-
  The csv reader reads back what the csv writer wrote.
-/
set_option linter.unusedSectionVars false
namespace PyFlowGo
open Spec
variable {d : Char}

/-- A character that can separate fields. -/
def Delim (d : Char) : Prop := d ≠ '"' ∧ d ≠ '\n' ∧ d ≠ '\r'

/-- The reader on a stream of characters; `mid` says that the current line has characters already. -/
def csvStream (d : Char) : List Char → CsvReader → Bool → Except Err (List (List (List Char)))
  | [], s, false => .ok (if s.field ≠ [] ∨ s.mode = .inQuoted then [s.fields ++ [s.field]] else [])
  | [], s, true => do
    let s ← s.char d none
    if s.mode = .startRecord then return s.fields :: []
    else .ok (if s.field ≠ [] ∨ s.mode = .inQuoted then [s.fields ++ [s.field]] else [])
  | c :: r, s, _ => do
    let s ← s.char d (some c)
    if c = '\n' then do
      let s ← s.char d none
      if s.mode = .startRecord then do
        let rs ← csvStream d r .start false
        return s.fields :: rs
      else csvStream d r s false
    else csvStream d r s true

/-- The lines with a first line already entered. -/
def csvMid (d : Char) : List (List Char) → CsvReader → Except Err (List (List (List Char)))
  | [], s => csvRecords d [[]] s
  | ls, s => csvRecords d ls s

theorem csvStream_lines (t : List Char) (s : CsvReader) :
    csvRecords d (fileLines t) s = csvStream d t s false ∧ csvMid d (fileLines t) s = csvStream d t s true := by
  induction t generalizing s with
  | nil =>
    constructor
    · rfl
    · show csvRecords d [[]] s = _
      rw [csvRecords, CsvReader.feed, ok_bind, csvStream]
      cases s.char d none with
      | error e => rfl
      | ok s =>
        simp only [ok_bind]
        split
        · rw [csvRecords]; simp [CsvReader.start]; rfl
        · rfl
  | cons c t ih =>
    have key : csvRecords d (fileLines (c :: t)) s = csvStream d (c :: t) s false := by
      rw [csvStream, fileLines]
      by_cases hc : c = '\n'
      · rw [if_pos hc, csvRecords]
        subst hc
        simp only [CsvReader.feed, bind_assoc, ok_bind, if_true]
        cases s.char d (some '\n') with
        | error e => rfl
        | ok s =>
          simp only [ok_bind]
          cases s.char d none with
          | error e => rfl
          | ok s => simp only [ok_bind, (ih _).1]
      · simp only [if_neg hc]
        cases hf : fileLines t with
        | nil =>
          have := fun s => (ih s).2
          simp only [hf, csvMid] at this
          dsimp only
          rw [csvRecords, CsvReader.feed]
          simp only [CsvReader.feed, bind_assoc]
          cases s.char d (some c) with
          | error e => rfl
          | ok s =>
            simp only [ok_bind]
            rw [← this]; rfl
        | cons l ls =>
          have := fun s => (ih s).2
          simp only [hf, csvMid] at this
          dsimp only
          rw [csvRecords, CsvReader.feed]
          simp only [bind_assoc]
          cases s.char d (some c) with
          | error e => rfl
          | ok s =>
            simp only [ok_bind]
            rw [← this, csvRecords]
    refine ⟨key, ?_⟩
    have : csvMid d (fileLines (c :: t)) s = csvRecords d (fileLines (c :: t)) s := by
      rw [fileLines]
      split
      · rfl
      · split <;> rfl
    rw [this, key, csvStream, csvStream]

/-- A plain field: nothing that needs quotes. -/
def Plain (d : Char) (f : List Char) : Prop := ∀ c ∈ f, c ≠ d ∧ c ≠ '"' ∧ c ≠ '\n' ∧ c ≠ '\r'

theorem plain_of (f : List Char) (h : needsQuote d f = false) : Plain d f := by
  intro c hc
  unfold needsQuote at h
  rw [List.any_eq_false] at h
  have := h c hc
  simp only [Bool.or_eq_true, beq_iff_eq, not_or] at this
  exact ⟨this.1.1.1, this.1.1.2, this.1.2, this.2⟩

theorem stream_inField (f rest : List Char) (hf : Plain d f) (g : List Char) (fs : List (List Char)) :
    csvStream d (f ++ rest) ⟨.inField, g, fs⟩ true = csvStream d rest ⟨.inField, g ++ f, fs⟩ true := by
  induction f generalizing g with
  | nil => simp
  | cons c f ih =>
    obtain ⟨h1, _, h3, h4⟩ := hf c (by simp)
    rw [List.cons_append, csvStream]
    simp only [CsvReader.char, h1, h3, h4, or_self, if_false, ok_bind]
    rw [ih (fun d hd => hf d (by simp [hd]))]
    simp

theorem stream_plain (f rest : List Char) (hf : Plain d f) (hne : f ≠ []) (fs : List (List Char)) (m : CsvMode)
    (hm : m = .startRecord ∨ m = .startField) (b : Bool) :
    csvStream d (f ++ rest) ⟨m, [], fs⟩ b = csvStream d rest ⟨.inField, f, fs⟩ true := by
  cases f with
  | nil => exact absurd rfl hne
  | cons c f =>
    obtain ⟨h1, h2, h3, h4⟩ := hf c (by simp)
    rw [List.cons_append, csvStream]
    rcases hm with rfl | rfl <;>
    · simp only [CsvReader.char, h1, h2, h3, h4, or_self, if_false, ok_bind]
      rw [stream_inField f rest (fun d hd => hf d (by simp [hd]))]
      rfl

/-- Quotes doubled. -/
def doubled (f : List Char) : List Char := f.flatMap fun c => if c = '"' then ['"', '"'] else [c]

theorem stream_quoted (f rest : List Char) (g : List Char) (fs : List (List Char)) (b : Bool) :
    csvStream d (doubled f ++ '"' :: rest) ⟨.inQuoted, g, fs⟩ b = csvStream d rest ⟨.quoteInQuoted, g ++ f, fs⟩ true := by
  induction f generalizing g b with
  | nil =>
    simp only [doubled, List.flatMap_nil, List.nil_append, csvStream, CsvReader.char, if_true, ok_bind]
    simp
  | cons c f ih =>
    unfold doubled at ih ⊢
    rw [List.flatMap_cons]
    by_cases hq : c = '"'
    · subst hq
      simp only [if_true, List.cons_append, List.nil_append, csvStream, CsvReader.char, ok_bind]
      have : ¬ ('"' = '\n') := by decide
      simp only [this, if_false, ih]
      simp
    · simp only [hq, if_false, List.cons_append, List.nil_append, csvStream, CsvReader.char, ok_bind]
      by_cases hn : c = '\n'
      · simp only [hn, if_true]
        have : ¬ (CsvMode.inQuoted = CsvMode.startRecord) := by decide
        simp only [this, if_false, ih]
        simp
      · simp only [hn, if_false, ih]
        simp

/-- One more record, then the rest. -/
def emit (d : Char) (r : List (List Char)) (t : List Char) : Except Err (List (List (List Char))) := do
  let rs ← csvStream d t .start false
  return r :: rs

theorem stream_newline (hd : Delim d) (t : List Char) (m : CsvMode) (f : List Char) (fs : List (List Char)) (b : Bool)
    (hm : m = .startField ∨ m = .inField ∨ m = .quoteInQuoted) :
    csvStream d ('\n' :: t) ⟨m, f, fs⟩ b = emit d (fs ++ [f]) t := by
  rw [csvStream]
  have h2 : ¬ ('\n' = d) := fun h => hd.2.1 h.symm
  rcases hm with rfl | rfl | rfl <;>
    simp [CsvReader.char, CsvReader.save, ok_bind, emit, h2]

theorem stream_comma (hd : Delim d) (t : List Char) (m : CsvMode) (f : List Char) (fs : List (List Char)) (b : Bool)
    (hm : m = .startRecord ∨ m = .startField ∨ m = .inField ∨ m = .quoteInQuoted) :
    csvStream d (d :: t) ⟨m, f, fs⟩ b = csvStream d t ⟨.startField, [], fs ++ [f]⟩ true := by
  rw [csvStream]
  obtain ⟨h1, h2, h3⟩ := hd
  rcases hm with rfl | rfl | rfl | rfl <;>
    simp [CsvReader.char, CsvReader.save, ok_bind, h1, h2, h3]

/-- After one written field the reader holds its text, ready for a comma or a line end. -/
theorem stream_field (f rest : List Char) (fs : List (List Char)) (m : CsvMode)
    (hm : m = .startRecord ∨ m = .startField) (b : Bool) :
    ∃ m' b', (m' = .startField ∨ m' = .inField ∨ m' = .quoteInQuoted ∨ (m' = .startRecord ∧ m = .startRecord ∧ f = [])) ∧
      csvStream d (quoteField d f ++ rest) ⟨m, [], fs⟩ b = csvStream d rest ⟨m', f, fs⟩ b' := by
  unfold quoteField
  by_cases hq : needsQuote d f = true
  · rw [if_pos hq]
    refine ⟨.quoteInQuoted, true, by simp, ?_⟩
    have := stream_quoted (d := d) f rest [] fs true
    rw [List.nil_append] at this
    rw [← this]
    show csvStream d ('"' :: (doubled f ++ ['"'] ++ rest)) _ b = _
    rw [List.append_assoc, List.cons_append, List.nil_append]
    rw [csvStream]
    rcases hm with rfl | rfl <;>
      simp [CsvReader.char, ok_bind]
  · rw [if_neg hq]
    by_cases hf : f = []
    · subst hf
      rcases hm with rfl | rfl
      · exact ⟨.startRecord, b, by simp, rfl⟩
      · exact ⟨.startField, b, by simp, rfl⟩
    · exact ⟨.inField, true, by simp, stream_plain f rest (plain_of f (by simpa using hq)) hf fs m hm b⟩

theorem stream_row (hd : Delim d) (fs : List (List Char)) (hne : fs ≠ []) (t : List Char) (acc : List (List Char)) (m : CsvMode)
    (hm : (m = .startRecord ∧ fs ≠ [[]]) ∨ m = .startField) (b : Bool) :
    csvStream d (List.intercalate [d] (fs.map (quoteField d)) ++ '\n' :: t) ⟨m, [], acc⟩ b = emit d (acc ++ fs) t := by
  induction fs generalizing acc m b with
  | nil => exact absurd rfl hne
  | cons f fs ih =>
    have hm' : m = .startRecord ∨ m = .startField := by
      rcases hm with h | h
      · exact Or.inl h.1
      · exact Or.inr h
    cases fs with
    | nil =>
      obtain ⟨m', b', h1, h2⟩ := stream_field f ('\n' :: t) acc m hm' b
      have : List.intercalate [d] ([f].map (quoteField d)) = quoteField d f := by simp [List.intercalate]
      rw [this, h2]
      refine stream_newline hd t m' f acc b' ?_
      rcases h1 with h | h | h | ⟨_, h4, h5⟩
      · exact Or.inl h
      · exact Or.inr (Or.inl h)
      · exact Or.inr (Or.inr h)
      · subst h5
        rcases hm with h | h
        · exact absurd rfl h.2
        · rw [h] at h4; cases h4
    | cons g fs =>
      have e : List.intercalate [d] ((f :: g :: fs).map (quoteField d)) =
          quoteField d f ++ d :: List.intercalate [d] ((g :: fs).map (quoteField d)) := by
        simp [List.intercalate, List.intersperse]
      rw [e, List.append_assoc, List.cons_append]
      obtain ⟨m', b', h1, h2⟩ := stream_field f (d :: (List.intercalate [d] ((g :: fs).map (quoteField d)) ++ '\n' :: t)) acc m hm' b
      rw [h2, stream_comma hd _ _ _ _ _ (by
        rcases h1 with h | h | h | h
        · exact Or.inr (Or.inl h)
        · exact Or.inr (Or.inr (Or.inl h))
        · exact Or.inr (Or.inr (Or.inr h))
        · exact Or.inl h.1), ih (by simp) _ _ (Or.inr rfl)]
      simp

theorem quoteField_no_cr (f : List Char) (hf : '\r' ∉ f) : '\r' ∉ quoteField d f := by
  unfold quoteField
  split
  · intro h
    simp only [List.cons_append, List.mem_cons, List.mem_append, List.mem_flatMap, List.not_mem_nil, or_false] at h
    rcases h with h | ⟨c, hc, h⟩ | h
    · revert h; decide
    · split at h
      · revert h; decide
      · rw [List.mem_singleton] at h; rw [← h] at hc; exact hf hc
    · revert h; decide
  · exact hf

theorem intercalate_no_cr (hd : Delim d) (fs : List (List Char)) (hf : ∀ f ∈ fs, '\r' ∉ f) : '\r' ∉ List.intercalate [d] fs := by
  induction fs with
  | nil => simp [List.intercalate]
  | cons f fs ih =>
    cases fs with
    | nil => simpa [List.intercalate] using hf f (by simp)
    | cons g fs =>
      have e : List.intercalate [d] (f :: g :: fs) = f ++ d :: List.intercalate [d] (g :: fs) := by
        simp [List.intercalate, List.intersperse]
      rw [e, List.mem_append, List.mem_cons, not_or, not_or]
      exact ⟨hf f (by simp), fun h => hd.2.2 h.symm, ih (fun x hx => hf x (List.mem_cons_of_mem _ hx))⟩

/-- One written record, then the rest. -/
theorem stream_record (hd : Delim d) (r : List (List Char)) (hne : r ≠ []) (t : List Char) :
    csvStream d ((if r = [[]] then ['"', '"'] else List.intercalate [d] (r.map (quoteField d))) ++ '\n' :: t) .start false =
      emit d r t := by
  by_cases h1 : r = [[]]
  · subst h1
    rw [if_pos rfl]
    have h := stream_quoted (d := d) [] ('\n' :: t) [] [] true
    rw [stream_newline hd _ _ _ _ _ (by simp)] at h
    have e2 : emit d ([] ++ [[] ++ []]) t = emit d [[]] t := rfl
    rw [← e2, ← h]
    show csvStream d ('"' :: _) _ _ = _
    rw [csvStream]
    simp [CsvReader.char, CsvReader.start, doubled, ok_bind]
  · rw [if_neg h1, show CsvReader.start = ⟨.startRecord, [], []⟩ from rfl, stream_row hd r hne _ _ _ (Or.inl ⟨rfl, h1⟩)]
    rfl

theorem record_no_cr (hd : Delim d) (r : List (List Char)) (hcr : ∀ f ∈ r, '\r' ∉ f) :
    '\r' ∉ (if r = [[]] then ['"', '"'] else List.intercalate [d] (r.map (quoteField d))) := by
  split
  · decide
  · refine intercalate_no_cr hd _ fun f hf => ?_
    obtain ⟨g, hg, rfl⟩ := List.mem_map.mp hf
    exact quoteField_no_cr g (hcr g hg)

theorem stream_write (hd : Delim d) (rows : List (List (List Char))) (hne : ∀ r ∈ rows, r ≠ []) (hcr : ∀ r ∈ rows, ∀ f ∈ r, '\r' ∉ f) :
    csvStream d (universal (csvWrite d rows)) .start false = .ok rows := by
  induction rows with
  | nil => simp [csvWrite, universal, universalFrom, csvStream, CsvReader.start]
  | cons r rows ih =>
    have ih' := ih (fun x hx => hne x (List.mem_cons_of_mem _ hx)) (fun x hx => hcr x (List.mem_cons_of_mem _ hx))
    have e : csvWrite d (r :: rows) = csvWriteRow d r ++ csvWrite d rows := by simp [csvWrite]
    rw [e]
    unfold csvWriteRow
    rw [List.append_assoc, universal_clean _ _ (record_no_cr hd r (hcr r (by simp)))]
    show csvStream d (_ ++ universal ('\r' :: '\n' :: csvWrite d rows)) _ _ = _
    rw [universal_crlf, stream_record hd r (hne r (by simp))]
    unfold emit
    rw [ih']
    rfl

theorem stored_append (a b : List Char) : stored true (a ++ b) = stored true a ++ stored true b := by
  simp [stored]

theorem universal_stored (a b : List Char) (ha : '\r' ∉ a) : universal (stored true a ++ b) = a ++ universal b := by
  induction a with
  | nil => rfl
  | cons c a ih =>
    have ih' := ih (fun h => ha (List.mem_cons_of_mem _ h))
    have hc : c ≠ '\r' := fun h => ha (by simp [h])
    have e : stored true (c :: a) = (if c = '\n' then ['\r', '\n'] else [c]) ++ stored true a := by simp [stored]
    rw [e, List.append_assoc]
    by_cases hn : c = '\n'
    · rw [if_pos hn]
      show universal ('\r' :: '\n' :: _) = _
      rw [universal_crlf, hn]
      show '\n' :: universal (stored true a ++ b) = _
      rw [ih']; rfl
    · rw [if_neg hn, universal_clean _ _ (by simpa using fun h => hc h.symm), ih']
      rfl

/-- The records with an empty one after each. -/
def spaced (rows : List (List (List Char))) : List (List (List Char)) := rows.flatMap fun r => [r, []]

theorem stream_write_windows (hd : Delim d) (rows : List (List (List Char))) (hne : ∀ r ∈ rows, r ≠ [])
    (hcr : ∀ r ∈ rows, ∀ f ∈ r, '\r' ∉ f) :
    csvStream d (universal (stored true (csvWrite d rows))) .start false = .ok (spaced rows) := by
  induction rows with
  | nil => simp [csvWrite, stored, universal, universalFrom, csvStream, CsvReader.start, spaced]
  | cons r rows ih =>
    have ih' := ih (fun x hx => hne x (List.mem_cons_of_mem _ hx)) (fun x hx => hcr x (List.mem_cons_of_mem _ hx))
    have e : csvWrite d (r :: rows) = csvWriteRow d r ++ csvWrite d rows := by simp [csvWrite]
    rw [e, stored_append]
    unfold csvWriteRow
    rw [stored_append, List.append_assoc, universal_stored _ _ (record_no_cr hd r (hcr r (by simp)))]
    have e2 : stored true ['\r', '\n'] = ['\r', '\r', '\n'] := by decide
    rw [e2]
    have e3 : universal (['\r', '\r', '\n'] ++ stored true (csvWrite d rows)) =
        '\n' :: '\n' :: universal (stored true (csvWrite d rows)) := by
      simp [universal, universalFrom]
    rw [e3, stream_record hd r (hne r (by simp))]
    unfold emit
    rw [csvStream]
    simp only [CsvReader.char, CsvReader.start, true_or, if_true, ok_bind]
    rw [show (⟨.startRecord, [], []⟩ : CsvReader) = CsvReader.start from rfl, ih']
    rfl

theorem csvRead_write (hd : Delim d) (rows : List (List (List Char))) (hne : ∀ r ∈ rows, r ≠ []) (hcr : ∀ r ∈ rows, ∀ f ∈ r, '\r' ∉ f)
    (windows : Bool) :
    csvRead d (stored windows (csvWrite d rows)) = .ok (if windows then spaced rows else rows) := by
  unfold csvRead
  rw [(csvStream_lines _ _).1]
  cases windows with
  | false => exact stream_write hd rows hne hcr
  | true => exact stream_write_windows hd rows hne hcr

theorem spaced_filter (rows : List (List (List Char))) (hne : ∀ r ∈ rows, r ≠ []) : (spaced rows).filter (· ≠ []) = rows := by
  induction rows with
  | nil => rfl
  | cons r rows ih =>
    have : spaced (r :: rows) = r :: [] :: spaced rows := by simp [spaced]
    rw [this, List.filter_cons, List.filter_cons, ih (fun x hx => hne x (List.mem_cons_of_mem _ hx))]
    simp [hne r (by simp)]

/-- What `DictReader` makes of a written file, on either platform. -/
theorem dictRead_write (hd : Delim d) (header : List (List Char)) (rows : List (List (List Char))) (hh : header ≠ [])
    (hne : ∀ r ∈ rows, r ≠ []) (hch : ∀ f ∈ header, '\r' ∉ f) (hcr : ∀ r ∈ rows, ∀ f ∈ r, '\r' ∉ f) (windows : Bool) :
    dictRead d (stored windows (csvWrite d (header :: rows))) = .ok (rows.map (dictZip header)) := by
  unfold dictRead
  rw [csvRead_write hd (header :: rows) (List.forall_mem_cons.mpr ⟨hh, hne⟩) (List.forall_mem_cons.mpr ⟨hch, hcr⟩), ok_bind]
  cases windows with
  | false =>
    simp only [if_false, pure_eq_ok, Bool.false_eq_true]
    rw [List.filter_eq_self.mpr (fun r hr => by simpa using hne r hr)]
  | true =>
    have : spaced (header :: rows) = header :: [] :: spaced rows := by simp [spaced]
    simp only [if_true, this, pure_eq_ok]
    rw [List.filter_cons]
    simp only [ne_eq, not_true_eq_false, decide_false, Bool.false_eq_true, if_false]
    rw [spaced_filter rows hne]

theorem dictZip_names (hs : List String) (r : List (List Char)) (p : List Char × Option (List Char))
    (hp : p ∈ dictZip (hs.map String.toList) r) : ∃ n ∈ hs, p.1 = n.toList := by
  induction hs generalizing r with
  | nil => simp [dictZip] at hp
  | cons a hs ih =>
    cases r with
    | nil =>
      rw [List.map_cons, dictZip] at hp
      rcases List.mem_cons.mp hp with rfl | hp
      · exact ⟨a, by simp, rfl⟩
      · obtain ⟨n, hn, e⟩ := ih _ hp
        exact ⟨n, by simp [hn], e⟩
    | cons g r =>
      rw [List.map_cons, dictZip] at hp
      rcases List.mem_cons.mp hp with rfl | hp
      · exact ⟨a, by simp, rfl⟩
      · obtain ⟨n, hn, e⟩ := ih _ hp
        exact ⟨n, by simp [hn], e⟩

/-- `row[name]` is the field in the place of the name. -/
theorem dictField_zip (hs : List String) (r : List (List Char)) (k : ℕ) (n : String) (hnd : hs.Nodup)
    (hl : r.length = hs.length) (hk : hs[k]? = some n) : dictField (dictZip (hs.map String.toList) r) n = .ok r[k]? := by
  have hz : ∀ (hs : List String) (r : List (List Char)) (k : ℕ), hs.Nodup → r.length = hs.length → hs[k]? = some n →
      (dictZip (hs.map String.toList) r).reverse.lookup n.toList = some r[k]? := by
    clear hl hk hnd
    intro hs
    induction hs with
    | nil => intro r k _ _ hk; simp at hk
    | cons m hs ih =>
      intro r k hnd hl hk
      cases r with
      | nil => simp at hl
      | cons f r =>
        rw [List.map_cons, dictZip, List.reverse_cons, List.lookup_append]
        obtain ⟨h1, h2⟩ := List.nodup_cons.mp hnd
        cases k with
        | succ k =>
          rw [ih r k h2 (by simpa using hl) (by simpa using hk)]
          simp
        | zero =>
          simp only [List.getElem?_cons_zero, Option.some.injEq] at hk
          subst hk
          have : (dictZip (hs.map String.toList) r).reverse.lookup m.toList = none := by
            rw [List.lookup_eq_none_iff]
            intro p hp
            rw [List.mem_reverse] at hp
            obtain ⟨n', hn', e⟩ := dictZip_names hs r p hp
            rw [e]
            have : m.toList ≠ n'.toList := fun h => h1 (String.toList_inj.mp h ▸ hn')
            simpa using this
          rw [this]
          simp
  unfold dictField
  rw [hz hs r k hnd hl hk]

end PyFlowGo
