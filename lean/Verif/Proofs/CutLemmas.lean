import Verif.Spec.CutSpec
import Verif.Proofs.CsvLemmas
/-
  Reading a csv file that was cut off.
-/
set_option linter.unusedSectionVars false
namespace PyFlowGo
open Spec
variable {d : Char}

theorem universalFrom_no_cr (b : Bool) (t : List Char) : '\r' ∉ universalFrom b t := by
  induction t generalizing b with
  | nil => simp [universalFrom]
  | cons c t ih =>
    rw [universalFrom]
    split
    · rw [List.mem_cons, not_or]; exact ⟨by decide, ih _⟩
    · split
      · exact ih _
      · rename_i h _
        rw [List.mem_cons, not_or]
        exact ⟨fun e => h e.symm, ih _⟩

/-- On a text without `\r` the reader never fails. -/
theorem stream_total (t : List Char) (ht : '\r' ∉ t) (s : CsvReader) (hs : s.mode ≠ .eatCrnl) (b : Bool) :
    ∃ rs, csvStream d t s b = .ok rs := by
  induction t generalizing s b with
  | nil =>
    cases b with
    | false => exact ⟨_, rfl⟩
    | true =>
      rw [csvStream]
      obtain ⟨m, f, fs⟩ := s
      cases m <;> simp_all [CsvReader.char, ok_bind, CsvReader.save, pure_eq_ok]
  | cons c t ih =>
    have ht' : '\r' ∉ t := fun h => ht (List.mem_cons_of_mem _ h)
    have hc : c ≠ '\r' := fun h => ht (by rw [h]; simp)
    rw [csvStream]
    by_cases hn : c = '\n'
    · subst hn
      obtain ⟨rs, hrs⟩ := ih ht' .start (by decide) false
      obtain ⟨m, f, fs⟩ := s
      cases m
      · simp [CsvReader.char, ok_bind, hrs, pure_eq_ok]
      · simp [CsvReader.char, ok_bind, hrs, pure_eq_ok, CsvReader.save]
      · simp [CsvReader.char, ok_bind, hrs, pure_eq_ok, CsvReader.save]
      · simp only [CsvReader.char, ok_bind, if_true]
        have : ¬ ('\n' = '"') := by decide
        simp only [this, if_false, ok_bind]
        exact ih ht' _ (by simp) false
      · simp only [CsvReader.char, ok_bind, if_true]
        by_cases hd : '\n' = d
        · have : ¬ ('\n' = '"') := by decide
          simp [this, if_pos hd, ok_bind, CsvReader.save, hrs, pure_eq_ok]
        · simp [if_neg hd, ok_bind, CsvReader.save, hrs, pure_eq_ok]
      · exact absurd rfl hs
    · simp only [if_neg hn]
      obtain ⟨m, f, fs⟩ := s
      have key : ∃ s', CsvReader.char d ⟨m, f, fs⟩ (some c) = .ok s' ∧ s'.mode ≠ .eatCrnl := by
        cases m
        · simp only [CsvReader.char, hn, hc, or_self, if_false]
          refine ⟨_, rfl, ?_⟩
          split
          · simp
          · split <;> simp [CsvReader.save]
        · simp only [CsvReader.char, hn, hc, or_self, if_false]
          refine ⟨_, rfl, ?_⟩
          split
          · simp
          · split <;> simp [CsvReader.save]
        · simp only [CsvReader.char, hn, hc, or_self, if_false]
          split
          · exact ⟨_, rfl, by simp [CsvReader.save]⟩
          · exact ⟨_, rfl, by simp [CsvReader.save]⟩
        · simp only [CsvReader.char]
          split
          · exact ⟨_, rfl, by simp [CsvReader.save]⟩
          · exact ⟨_, rfl, by simp [CsvReader.save]⟩
        · simp only [CsvReader.char, hn, hc, or_self, if_false]
          split
          · exact ⟨_, rfl, by simp [CsvReader.save]⟩
          · split
            · exact ⟨_, rfl, by simp [CsvReader.save]⟩
            · exact ⟨_, rfl, by simp [CsvReader.save]⟩
        · exact absurd rfl hs
      obtain ⟨s', h1, h2⟩ := key
      rw [h1, ok_bind]
      exact ih ht' s' h2 true

theorem csvRead_total (d : Char) (text : List Char) : ∃ rs, csvRead d text = .ok rs := by
  unfold csvRead
  rw [(csvStream_lines _ _).1]
  exact stream_total _ (universalFrom_no_cr false text) _ (by decide) false

/-- Only the non-empty records count. -/
def solid (rs : List (List (List Char))) : List (List (List Char)) := rs.filter (· ≠ [])

theorem solid_rows (rows : List (List (List Char))) (h : ∀ r ∈ rows, r ≠ []) : solid rows = rows := by
  unfold solid
  rw [List.filter_eq_self]
  intro r hr; simpa using h r hr

/-- The fields of a cut line. -/
theorem stream_cut (hd : Delim d) (fs : List (List Char)) (f : List Char) (hfs : ∀ x ∈ fs, PlainText d x) (hf : PlainText d f)
    (acc : List (List Char)) (m : CsvMode) (b : Bool)
    (hm : (m = .startRecord ∧ (fs ≠ [] ∨ f ≠ [])) ∨ (m = .startField ∧ b = true)) :
    csvStream d (List.intercalate [d] (fs ++ [f])) ⟨m, [], acc⟩ b = .ok [acc ++ (fs ++ [f])] := by
  induction fs generalizing acc m b with
  | nil =>
    have e : List.intercalate [d] ([] ++ [f]) = f := by simp [List.intercalate]
    rw [e]
    by_cases hf0 : f = []
    · subst hf0
      rcases hm with ⟨_, h⟩ | ⟨rfl, rfl⟩
      · exact absurd rfl (h.resolve_left (by simp))
      · rw [csvStream]; simp [CsvReader.char, CsvReader.save, ok_bind, pure_eq_ok]
    · have := stream_plain (d := d) f [] hf hf0 acc m (by
        rcases hm with h | h
        · exact Or.inl h.1
        · exact Or.inr h.1) b
      rw [List.append_nil] at this
      rw [this, csvStream]
      simp [CsvReader.char, CsvReader.save, ok_bind, pure_eq_ok]
  | cons a fs ih =>
    have e : List.intercalate [d] (a :: fs ++ [f]) = quoteField d a ++ d :: List.intercalate [d] (fs ++ [f]) := by
      have hq : quoteField d a = a := by
        unfold quoteField
        have : needsQuote d a = false := by
          unfold needsQuote
          rw [List.any_eq_false]
          intro c hc
          obtain ⟨h1, h2, h3, h4⟩ := hfs a (by simp) c hc
          simp [h1, h2, h3, h4]
        rw [this]; simp
      rw [hq]
      cases fs <;> simp [List.intercalate, List.intersperse]
    rw [e]
    obtain ⟨m', b', h1, h2⟩ := stream_field a (d :: List.intercalate [d] (fs ++ [f])) acc m (by
        rcases hm with h | h
        · exact Or.inl h.1
        · exact Or.inr h.1) b
    rw [h2, stream_comma hd _ _ _ _ _ (by
        rcases h1 with h | h | h | h
        · exact Or.inr (Or.inl h)
        · exact Or.inr (Or.inr (Or.inl h))
        · exact Or.inr (Or.inr (Or.inr h))
        · exact Or.inl h.1), ih (fun x hx => hfs x (List.mem_cons_of_mem _ hx)) _ _ _ (Or.inr ⟨rfl, rfl⟩)]
    simp

/-- A beginning of a line is made of complete fields and a beginning of the next. -/
theorem take_intercalate (r : List (List Char)) (hne : r ≠ []) (n : ℕ) (hn : n ≤ (List.intercalate [d] r).length) :
    ∃ fs f g rest, r = fs ++ (f ++ g) :: rest ∧ (List.intercalate [d] r).take n = List.intercalate [d] (fs ++ [f]) := by
  induction r generalizing n with
  | nil => exact absurd rfl hne
  | cons a r ih =>
    cases r with
    | nil =>
      refine ⟨[], a.take n, a.drop n, [], by simp, ?_⟩
      simp [List.intercalate]
    | cons b r =>
      have e : List.intercalate [d] (a :: b :: r) = a ++ d :: List.intercalate [d] (b :: r) := by
        simp [List.intercalate, List.intersperse]
      rcases Nat.lt_or_ge a.length n with h | h
      · rw [e, List.length_append, List.length_cons] at hn
        obtain ⟨fs, f, g, rest, h1, h2⟩ := ih (by simp) (n - a.length - 1) (by omega)
        refine ⟨a :: fs, f, g, rest, by rw [h1]; rfl, ?_⟩
        rw [e, List.take_append, List.take_of_length_le (by omega)]
        obtain ⟨k, hk⟩ : ∃ k, n - a.length = k + 1 := ⟨n - a.length - 1, by omega⟩
        rw [hk, List.take_succ_cons]
        rw [show n - a.length - 1 = k by omega] at h2
        rw [h2]
        cases fs <;> simp [List.intercalate, List.intersperse]
      · refine ⟨[], a.take n, a.drop n, b :: r, by simp, ?_⟩
        rw [e, List.take_append_of_le_length h]
        simp [List.intercalate]

/-- Complete lines, then the rest. -/
theorem stream_prefix (hd : Delim d) (w : Bool) (pre : List (List (List Char))) (hne : ∀ r ∈ pre, r ≠ [])
    (hcr : ∀ r ∈ pre, ∀ f ∈ r, '\r' ∉ f) (tail : List Char) (rs : List (List (List Char)))
    (ht : csvStream d (universal tail) .start false = .ok rs) :
    csvStream d (universal (stored w (csvWrite d pre) ++ tail)) .start false =
      .ok ((if w then spaced pre else pre) ++ rs) := by
  induction pre with
  | nil => cases w <;> simp [csvWrite, stored, spaced, ht]
  | cons r pre ih =>
    have ih' := ih (fun x hx => hne x (List.mem_cons_of_mem _ hx)) (fun x hx => hcr x (List.mem_cons_of_mem _ hx))
    have e : csvWrite d (r :: pre) = csvWriteRow d r ++ csvWrite d pre := by simp [csvWrite]
    rw [e]
    cases w with
    | false =>
      have hst : ∀ t, stored false t = t := fun _ => rfl
      rw [hst] at ih' ⊢
      unfold csvWriteRow
      rw [List.append_assoc, List.append_assoc, universal_clean _ _ (record_no_cr hd r (hcr r (by simp)))]
      show csvStream d (_ ++ universal ('\r' :: '\n' :: (csvWrite d pre ++ tail))) _ _ = _
      rw [universal_crlf, stream_record hd r (hne r (by simp))]
      unfold emit
      rw [ih']
      rfl
    | true =>
      rw [stored_append]
      unfold csvWriteRow
      rw [stored_append, List.append_assoc, List.append_assoc, universal_stored _ _ (record_no_cr hd r (hcr r (by simp)))]
      have e2 : stored true ['\r', '\n'] = ['\r', '\r', '\n'] := by decide
      rw [e2]
      have e3 : universal (['\r', '\r', '\n'] ++ (stored true (csvWrite d pre) ++ tail)) =
          '\n' :: '\n' :: universal (stored true (csvWrite d pre) ++ tail) := by
        simp [universal, universalFrom]
      rw [e3, stream_record hd r (hne r (by simp))]
      unfold emit
      rw [csvStream]
      simp only [CsvReader.char, CsvReader.start, true_or, if_true, ok_bind]
      rw [show (⟨.startRecord, [], []⟩ : CsvReader) = CsvReader.start from rfl, ih']
      rfl

theorem plain_intercalate (hd : Delim d) (r : List (List Char)) (hr : ∀ f ∈ r, PlainText d f) :
    '\r' ∉ List.intercalate [d] r ∧ '\n' ∉ List.intercalate [d] r := by
  induction r with
  | nil => simp [List.intercalate]
  | cons f fs ih =>
    have h1 : '\r' ∉ f := fun h => (hr f (by simp) _ h).2.2.2 rfl
    have h2 : '\n' ∉ f := fun h => (hr f (by simp) _ h).2.2.1 rfl
    cases fs with
    | nil => simpa [List.intercalate] using ⟨h1, h2⟩
    | cons g fs =>
      have e : List.intercalate [d] (f :: g :: fs) = f ++ d :: List.intercalate [d] (g :: fs) := by
        simp [List.intercalate, List.intersperse]
      obtain ⟨i1, i2⟩ := ih (fun x hx => hr x (List.mem_cons_of_mem _ hx))
      rw [e]
      simp only [List.mem_append, List.mem_cons, not_or]
      exact ⟨⟨h1, fun h => hd.2.2 h.symm, i1⟩, h2, fun h => hd.2.1 h.symm, i2⟩

theorem plain_quote (f : List Char) (hf : PlainText d f) : quoteField d f = f := by
  unfold quoteField
  have : needsQuote d f = false := by
    unfold needsQuote
    rw [List.any_eq_false]
    intro c hc
    obtain ⟨h1, h2, h3, h4⟩ := hf c hc
    simp [h1, h2, h3, h4]
  rw [this]; simp

theorem plain_row (r : List (List Char)) (hr : ∀ f ∈ r, PlainText d f) (h1 : r ≠ [[]]) :
    csvWriteRow d r = List.intercalate [d] r ++ ['\r', '\n'] := by
  unfold csvWriteRow
  have : r.map (quoteField d) = r := by
    conv_rhs => rw [← List.map_id r]
    exact List.map_congr_left fun f hf => plain_quote f (hr f hf)
  rw [if_neg h1, this]

/-- Rows that are written without quotes. -/
structure PlainRows (d : Char) (rows : List (List (List Char))) : Prop where
  nonempty : ∀ r ∈ rows, r ≠ []
  notBlank : ∀ r ∈ rows, r ≠ [[]]
  plain : ∀ r ∈ rows, ∀ f ∈ r, PlainText d f

theorem PlainRows.no_cr {rows : List (List (List Char))} (h : PlainRows d rows) : ∀ r ∈ rows, ∀ f ∈ r, '\r' ∉ f :=
  fun r hr f hf hc => (h.plain r hr f hf _ hc).2.2.2 rfl

/-- Every beginning of the file is one of the three kinds. -/
theorem cut_cases (hd : Delim d) (w : Bool) (rows : List (List (List Char))) (hp : PlainRows d rows) (n : ℕ) :
    ∃ out, CutOff d w rows ((stored w (csvWrite d rows)).take n) out := by
  induction rows generalizing n with
  | nil =>
    refine ⟨[], ?_⟩
    have : (stored w (csvWrite d [])).take n = stored w (csvWrite d []) := by cases w <;> simp [stored, csvWrite]
    rw [this]
    exact .between [] [] rfl
  | cons r rows ih =>
    have hp' : PlainRows d rows := ⟨fun x hx => hp.nonempty x (List.mem_cons_of_mem _ hx),
      fun x hx => hp.notBlank x (List.mem_cons_of_mem _ hx), fun x hx => hp.plain x (List.mem_cons_of_mem _ hx)⟩
    obtain ⟨hnr, hnn⟩ := plain_intercalate hd r (hp.plain r (by simp))
    have happ : ∀ a b, stored w (a ++ b) = stored w a ++ stored w b := by intro a b; cases w <;> simp [stored]
    have hbody : stored w (List.intercalate [d] r) = List.intercalate [d] r := by
      cases w with
      | false => rfl
      | true =>
        unfold stored
        rw [if_pos rfl]
        generalize List.intercalate [d] r = t at hnn
        clear hnr
        induction t with
        | nil => rfl
        | cons c t ih =>
          rw [List.mem_cons, not_or] at hnn
          rw [List.flatMap_cons, ih hnn.2, if_neg (fun h => hnn.1 h.symm)]
          rfl
    have hrow : stored w (csvWriteRow d r) = List.intercalate [d] r ++ stored w ['\r', '\n'] := by
      rw [plain_row r (hp.plain r (by simp)) (hp.notBlank r (by simp)), happ, hbody]
    have e : ∀ rs, csvWrite d (r :: rs) = csvWriteRow d r ++ csvWrite d rs := fun rs => by simp [csvWrite]
    have hfull : ∀ rs, stored w (csvWrite d (r :: rs)) = (List.intercalate [d] r ++ stored w ['\r', '\n']) ++ stored w (csvWrite d rs) := by
      intro rs; rw [e, happ, hrow]
    rw [hfull]
    rcases Nat.lt_or_ge n (List.intercalate [d] r ++ stored w ['\r', '\n']).length with h | h
    · rw [List.take_append_of_le_length (by omega)]
      rcases Nat.lt_or_ge (List.intercalate [d] r).length n with h2 | h2
      · -- in the end-of-line
        refine ⟨[r], ?_⟩
        rw [List.take_append, List.take_of_length_le (by omega)]
        have key := CutOff.inNewline (d := d) (windows := w) (rows := r :: rows) [] rows r rfl
          ((stored w ['\r', '\n']).take (n - (List.intercalate [d] r).length)) (by
            rw [List.length_append] at h
            cases w with
            | false =>
              have e2 : stored false ['\r', '\n'] = ['\r', '\n'] := by decide
              rw [e2] at h ⊢
              simp only [List.length_cons, List.length_nil] at h
              have : n - (List.intercalate [d] r).length = 1 := by omega
              rw [this]; exact Or.inl rfl
            | true =>
              have e2 : stored true ['\r', '\n'] = ['\r', '\r', '\n'] := by decide
              rw [e2] at h ⊢
              simp only [List.length_cons, List.length_nil] at h
              have : n - (List.intercalate [d] r).length = 1 ∨ n - (List.intercalate [d] r).length = 2 := by omega
              rcases this with h | h
              · rw [h]; exact Or.inl rfl
              · rw [h]; exact Or.inr ⟨rfl, rfl⟩)
        have e0 : stored w (csvWrite d []) = [] := by cases w <;> rfl
        rw [e0, List.nil_append] at key
        exact key
      · rw [List.take_append_of_le_length h2]
        obtain ⟨fs, f, g, rest, h3, h4⟩ := take_intercalate (d := d) r (hp.nonempty r (by simp)) n h2
        have e0 : stored w (csvWrite d []) = [] := by cases w <;> rfl
        rw [h4]
        by_cases h5 : fs ≠ [] ∨ f ≠ []
        · have key := CutOff.inside (d := d) (windows := w) (rows := r :: rows) [] rows fs f g rest (by rw [h3]; rfl) h5
          rw [e0, List.nil_append] at key
          exact ⟨_, key⟩
        · push Not at h5
          obtain ⟨rfl, rfl⟩ := h5
          have key := CutOff.between (d := d) (windows := w) (rows := r :: rows) [] (r :: rows) rfl
          rw [e0] at key
          exact ⟨_, key⟩
    · rw [List.take_append, List.take_of_length_le h]
      obtain ⟨out, ho⟩ := ih hp' (n - (List.intercalate [d] r ++ stored w ['\r', '\n']).length)
      refine ⟨r :: out, ?_⟩
      generalize (stored w (csvWrite d rows)).take (n - (List.intercalate [d] r ++ stored w ['\r', '\n']).length) = text at ho
      cases ho with
      | between _ post h => rw [← hfull]; exact .between (r :: out) post (by rw [h]; rfl)
      | inside pre post fs f g rest h hne =>
        rw [← List.append_assoc, ← hfull]
        exact .inside (r :: pre) post fs f g rest (by rw [h]; rfl) hne
      | inNewline pre post r' h e he =>
        rw [← List.append_assoc, ← hfull]
        exact .inNewline (r :: pre) post r' (by rw [h]; rfl) e he

/-- Reading what is left. -/
theorem cut_read (hd : Delim d) (w : Bool) (rows : List (List (List Char))) (hp : PlainRows d rows) (text : List Char)
    (out : List (List (List Char))) (hc : CutOff d w rows text out) :
    ∃ rs, csvRead d text = .ok rs ∧ rs.filter (· ≠ []) = out ∧ (rs = [] ↔ out = []) ∧ rs.head? = out.head? := by
  unfold csvRead
  rw [(csvStream_lines _ _).1]
  have hpre : ∀ pre post : List (List (List Char)), rows = pre ++ post → (∀ r ∈ pre, r ≠ []) ∧ (∀ r ∈ pre, ∀ f ∈ r, '\r' ∉ f) := by
    intro pre post h
    have hin : ∀ r ∈ pre, r ∈ rows := fun r hr => by rw [h]; exact List.mem_append_left _ hr
    exact ⟨fun r hr => hp.nonempty r (hin r hr), fun r hr => hp.no_cr r (hin r hr)⟩
  have hfil : ∀ pre : List (List (List Char)), (∀ r ∈ pre, r ≠ []) → (if w then spaced pre else pre).filter (· ≠ []) = pre := by
    intro pre h
    cases w with
    | true => exact spaced_filter pre h
    | false => exact solid_rows pre h
  have hhead : ∀ pre : List (List (List Char)), (if w then spaced pre else pre).head? = pre.head? := by
    intro pre
    cases w <;> cases pre <;> simp [spaced]
  have hnil : ∀ pre : List (List (List Char)), (if w then spaced pre else pre) = [] ↔ pre = [] := by
    intro pre
    cases w <;> cases pre <;> simp [spaced]
  cases hc with
  | between _ post h =>
    obtain ⟨h1, h2⟩ := hpre _ _ h
    have := stream_prefix hd w out h1 h2 [] [] rfl
    rw [List.append_nil, List.append_nil] at this
    exact ⟨_, this, hfil out h1, hnil out, hhead out⟩
  | inside pre post fs f g rest h hne =>
    obtain ⟨h1, h2⟩ := hpre _ _ h
    have hr : ∀ x ∈ fs ++ (f ++ g) :: rest, PlainText d x := hp.plain _ (by rw [h]; simp)
    have hfs : ∀ x ∈ fs, PlainText d x := fun x hx => hr x (List.mem_append_left _ hx)
    have hf : PlainText d f := fun c hc => hr (f ++ g) (by simp) c (List.mem_append_left _ hc)
    have hall : ∀ x ∈ fs ++ [f], PlainText d x := by
      intro x hx
      rcases List.mem_append.mp hx with hx | hx
      · exact hfs x hx
      · rw [List.mem_singleton.mp hx]; exact hf
    have hu : universal (List.intercalate [d] (fs ++ [f])) = List.intercalate [d] (fs ++ [f]) := by
      have := universal_clean (List.intercalate [d] (fs ++ [f])) [] (plain_intercalate hd _ hall).1
      rw [List.append_nil] at this
      rw [this]; simp [universal, universalFrom]
    have ht := stream_cut hd fs f hfs hf [] .startRecord false (Or.inl ⟨rfl, hne⟩)
    rw [List.nil_append] at ht
    refine ⟨_, stream_prefix hd w pre h1 h2 _ _ (by rw [hu]; exact ht), ?_, by simp, ?_⟩
    · rw [List.filter_append, hfil pre h1]; simp
    · rw [List.head?_append, List.head?_append, hhead]
  | inNewline pre post r h e he =>
    obtain ⟨h1, h2⟩ := hpre _ _ h
    have hr : r ∈ rows := by rw [h]; simp
    have hrec := fun t => stream_record hd r (hp.nonempty r hr) t
    have hq : r.map (quoteField d) = r := by
      conv_rhs => rw [← List.map_id r]
      exact List.map_congr_left fun f hf => plain_quote f (hp.plain r hr f hf)
    simp only [if_neg (hp.notBlank r hr), hq] at hrec
    have hu : universal (List.intercalate [d] r ++ e) = List.intercalate [d] r ++ universal e :=
      universal_clean _ _ (plain_intercalate hd _ (hp.plain r hr)).1
    have ht : ∃ blank, (blank = [] ∨ blank = [[]]) ∧
        csvStream d (universal (List.intercalate [d] r ++ e)) .start false = .ok (r :: blank) := by
      rw [hu]
      rcases he with rfl | ⟨_, rfl⟩
      · refine ⟨[], Or.inl rfl, ?_⟩
        show csvStream d (_ ++ '\n' :: []) _ _ = _
        rw [hrec]; simp [emit, csvStream, CsvReader.start, pure_eq_ok, ok_bind]
      · refine ⟨[[]], Or.inr rfl, ?_⟩
        show csvStream d (_ ++ '\n' :: ['\n']) _ _ = _
        rw [hrec]
        unfold emit
        rw [csvStream]
        simp [CsvReader.char, CsvReader.start, csvStream, pure_eq_ok, ok_bind]
    obtain ⟨blank, hb, ht⟩ := ht
    refine ⟨_, stream_prefix hd w pre h1 h2 _ _ ht, ?_, by simp, ?_⟩
    · rw [List.filter_append, hfil pre h1, List.filter_cons]
      rcases hb with rfl | rfl <;> simp [hp.nonempty r hr]
    · rw [List.head?_append, List.head?_append, hhead]
      rfl

theorem stored_app (w : Bool) (a b : List Char) : stored w (a ++ b) = stored w a ++ stored w b := by
  cases w <;> simp [stored]

theorem intercalate_cut_le (fs : List (List Char)) (f g : List Char) (rest : List (List Char)) :
    (List.intercalate [d] (fs ++ [f])).length ≤ (List.intercalate [d] (fs ++ (f ++ g) :: rest)).length := by
  induction fs with
  | nil =>
    have e : List.intercalate [d] ([] ++ [f]) = f := by simp [List.intercalate]
    rw [e, List.nil_append]
    cases rest <;> simp [List.intercalate, List.intersperse] <;> omega
  | cons a fs ih =>
    have e1 : List.intercalate [d] (a :: fs ++ [f]) = a ++ d :: List.intercalate [d] (fs ++ [f]) := by
      cases fs <;> simp [List.intercalate, List.intersperse]
    have e2 : List.intercalate [d] (a :: fs ++ (f ++ g) :: rest) = a ++ d :: List.intercalate [d] (fs ++ (f ++ g) :: rest) := by
      cases fs <;> simp [List.intercalate, List.intersperse]
    rw [e1, e2, List.length_append, List.length_append, List.length_cons, List.length_cons]
    omega

theorem intercalate_cut_prefix (fs : List (List Char)) (f g : List Char) (rest : List (List Char)) :
    List.intercalate [d] (fs ++ [f]) <+: List.intercalate [d] (fs ++ (f ++ g) :: rest) := by
  induction fs with
  | nil =>
    have e : List.intercalate [d] ([] ++ [f]) = f := by simp [List.intercalate]
    rw [e, List.nil_append]
    cases rest with
    | nil => simp [List.intercalate]
    | cons b rest =>
      refine ⟨g ++ d :: List.intercalate [d] (b :: rest), ?_⟩
      simp [List.intercalate]
  | cons a fs ih =>
    obtain ⟨s, hs⟩ := ih
    refine ⟨s, ?_⟩
    have e1 : List.intercalate [d] (a :: fs ++ [f]) = a ++ d :: List.intercalate [d] (fs ++ [f]) := by
      cases fs <;> simp [List.intercalate]
    have e2 : List.intercalate [d] (a :: fs ++ (f ++ g) :: rest) = a ++ d :: List.intercalate [d] (fs ++ (f ++ g) :: rest) := by
      cases fs <;> simp [List.intercalate]
    rw [e1, e2, ← hs]
    simp

theorem stored_line (w : Bool) (t : List Char) (h : '\n' ∉ t) : stored w t = t := by
  cases w with
  | false => rfl
  | true =>
    unfold stored
    rw [if_pos rfl]
    induction t with
    | nil => rfl
    | cons c t ih =>
      rw [List.mem_cons, not_or] at h
      rw [List.flatMap_cons, ih h.2]
      rw [if_neg (fun e => h.1 e.symm)]
      rfl

/-- A file cut inside a field is a beginning of the file. -/
theorem cut_inside_prefix (hd : Delim d) (w : Bool) (pre post : List (List (List Char))) (fs : List (List Char)) (f g : List Char)
    (rest : List (List Char)) (hp : PlainRows d (pre ++ (fs ++ (f ++ g) :: rest) :: post)) :
    stored w (csvWrite d pre) ++ List.intercalate [d] (fs ++ [f]) <+:
      stored w (csvWrite d (pre ++ (fs ++ (f ++ g) :: rest) :: post)) := by
  have hmem : (fs ++ (f ++ g) :: rest) ∈ pre ++ (fs ++ (f ++ g) :: rest) :: post := by simp
  have hrow := plain_row _ (hp.plain _ hmem) (hp.notBlank _ hmem)
  have hnl := (plain_intercalate hd _ (hp.plain _ hmem)).2
  obtain ⟨s, hs⟩ := intercalate_cut_prefix (d := d) fs f g rest
  have e : csvWrite d (pre ++ (fs ++ (f ++ g) :: rest) :: post) =
      csvWrite d pre ++ (List.intercalate [d] (fs ++ (f ++ g) :: rest) ++ (['\r', '\n'] ++ csvWrite d post)) := by
    rw [← List.append_assoc (List.intercalate [d] _), ← hrow]
    simp [csvWrite]
  refine ⟨s ++ stored w (['\r', '\n'] ++ csvWrite d post), ?_⟩
  rw [e, stored_app w (csvWrite d pre), stored_app w (List.intercalate [d] _), stored_line w _ hnl, ← hs]
  simp

theorem stored_le (w : Bool) (t : List Char) : t.length ≤ (stored w t).length := by
  cases w with
  | false => exact le_rfl
  | true =>
    unfold stored
    rw [if_pos rfl]
    induction t with
    | nil => simp
    | cons c t ih =>
      rw [List.flatMap_cons, List.length_append, List.length_cons]
      split <;> simp at ih ⊢ <;> omega

/-- Every line that was written completely is read completely. -/
theorem cut_keeps (hd : Delim d) (w : Bool) (rows : List (List (List Char))) (hp : PlainRows d rows) (n : ℕ)
    (out : List (List (List Char))) (hc : CutOff d w rows ((stored w (csvWrite d rows)).take n) out) (i : ℕ)
    (hi : (stored w (csvWrite d (rows.take i))).length ≤ n) : rows.take i <+: out := by
  have hw : ∀ a b, stored w (csvWrite d (a ++ b)) = stored w (csvWrite d a) ++ stored w (csvWrite d b) := by
    intro a b
    rw [← stored_app]; simp [csvWrite]
  have hlen : (stored w (csvWrite d (rows.take i))).length ≤ ((stored w (csvWrite d rows)).take n).length := by
    have : (stored w (csvWrite d (rows.take i))).length ≤ (stored w (csvWrite d rows)).length := by
      conv_rhs => rw [← List.take_append_drop i rows, hw]
      rw [List.length_append]; omega
    rw [List.length_take]; omega
  have hone : ∀ r, stored w (csvWrite d [r]) = stored w (csvWriteRow d r) := fun r => by simp [csvWrite]
  -- a longer beginning has the next line as well
  have hmore : ∀ pre r post, rows = pre ++ r :: post → pre.length < i →
      (stored w (csvWrite d pre)).length + (stored w (csvWriteRow d r)).length ≤
        (stored w (csvWrite d (rows.take i))).length := by
    intro pre r post h hl
    obtain ⟨k, rfl⟩ : ∃ k, i = pre.length + 1 + k := ⟨i - pre.length - 1, by omega⟩
    have : rows.take (pre.length + 1 + k) = (pre ++ [r]) ++ post.take k := by
      rw [h, List.take_append, List.take_of_length_le (by omega)]
      rw [show pre.length + 1 + k - pre.length = k + 1 by omega, List.take_succ_cons]
      simp
    rw [this, hw, hw, hone, List.length_append, List.length_append]
    omega
  have hpre : ∀ pre post, rows = pre ++ post → i ≤ pre.length → rows.take i <+: pre := by
    intro pre post h hl
    rw [h, List.take_append_of_le_length hl]
    exact List.take_prefix _ _
  generalize htext : (stored w (csvWrite d rows)).take n = text at hc hlen
  cases hc with
  | between _ post h =>
    rcases Nat.lt_or_ge out.length i with hl | hl
    · cases post with
      | nil =>
        rw [List.append_nil] at h
        rw [h]; exact List.take_prefix _ _
      | cons r post =>
        have h1 := hmore out r post h hl
        have h2 := stored_le w (csvWriteRow d r)
        have h3 : 2 ≤ (csvWriteRow d r).length := by unfold csvWriteRow; simp
        omega
    · exact hpre out post h hl
  | inside pre post fs f g rest h hne =>
    rcases Nat.lt_or_ge pre.length i with hl | hl
    · exfalso
      have h1 := hmore pre _ post h hl
      have h2 := stored_le w (csvWriteRow d (fs ++ (f ++ g) :: rest))
      have hr : fs ++ (f ++ g) :: rest ∈ rows := by rw [h]; simp
      rw [plain_row _ (hp.plain _ hr) (hp.notBlank _ hr), List.length_append] at h2
      have h3 := intercalate_cut_le (d := d) fs f g rest
      rw [List.length_append] at hlen
      rw [plain_row _ (hp.plain _ hr) (hp.notBlank _ hr)] at h1
      simp only [List.length_cons, List.length_nil] at h2
      omega
    · exact (hpre pre _ h hl).trans (List.prefix_append _ _)
  | inNewline pre post r h e he =>
    rcases Nat.lt_or_ge (pre ++ [r]).length i with hl | hl
    · rw [List.length_append, List.length_singleton] at hl
      cases post with
      | nil =>
        rw [← h]; exact List.take_prefix _ _
      | cons r2 post =>
        exfalso
        have h1 := hmore (pre ++ [r]) r2 post (by rw [h]; simp) (by simpa using hl)
        rw [hw, hone, List.length_append] at h1
        have hr : r ∈ rows := by rw [h]; simp
        have h2 := stored_le w (csvWriteRow d r)
        rw [plain_row _ (hp.plain _ hr) (hp.notBlank _ hr), List.length_append] at h2
        rw [plain_row _ (hp.plain _ hr) (hp.notBlank _ hr)] at h1
        simp only [List.length_cons, List.length_nil] at h2
        have h3 : 2 ≤ (stored w (csvWriteRow d r2)).length := le_trans (by unfold csvWriteRow; simp) (stored_le w _)
        have he2 : e.length ≤ 2 := by rcases he with rfl | ⟨_, rfl⟩ <;> simp
        rw [List.length_append, List.length_append] at hlen
        omega
    · exact hpre (pre ++ [r]) post (by rw [h]; simp) hl

end PyFlowGo
