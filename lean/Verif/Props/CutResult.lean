import Verif.Proofs.CutLemmas
import Verif.Props.CsvText
import Verif.Model.PlotText
/-
  C74: every text can be read as csv. C100: result files that were cut off while being written.
-/
set_option linter.unusedSectionVars false
namespace PyFlowGo
open Spec

/-- **C74**. The csv reader accepts every text, whatever is in it. -/
theorem C74_any_text_is_readable (d : Char) (text : List Char) :
    (∃ records, csvRead d text = .ok records) ∧ ∃ rows, dictRead d text = .ok rows := by
  obtain ⟨rs, h⟩ := csvRead_total d text
  refine ⟨⟨rs, h⟩, ?_⟩
  unfold dictRead
  rw [h, ok_bind]
  cases rs with
  | nil => exact ⟨_, rfl⟩
  | cons a l => exact ⟨_, rfl⟩

/-- **C100**, records. Every beginning of a csv file written from plain fields -- wherever the cut is -- consists of the
    complete records written so far and possibly one record more, of which some fields are complete, one is cut and the
    others are missing; that is what is read from it. No complete line is lost. -/
theorem C100_cut_file (d : Char) (hd : d ≠ '"' ∧ d ≠ '\n' ∧ d ≠ '\r') (windows : Bool) (rows : List (List (List Char)))
    (hrows : ∀ r ∈ rows, r ≠ [] ∧ r ≠ [[]] ∧ ∀ f ∈ r, PlainText d f) (n : ℕ) :
    ∃ records all, CutOff d windows rows ((stored windows (csvWrite d rows)).take n) records ∧
      csvRead d ((stored windows (csvWrite d rows)).take n) = .ok all ∧ all.filter (· ≠ []) = records ∧
      ∀ i, (stored windows (csvWrite d (rows.take i))).length ≤ n → rows.take i <+: records := by
  have hp : PlainRows d rows := ⟨fun r hr => (hrows r hr).1, fun r hr => (hrows r hr).2.1, fun r hr => (hrows r hr).2.2⟩
  obtain ⟨out, hc⟩ := cut_cases hd windows rows hp n
  obtain ⟨rs, h1, h2, _⟩ := cut_read hd windows rows hp _ out hc
  exact ⟨out, rs, hc, h1, h2, fun i hi => cut_keeps hd windows rows hp n out hc i hi⟩

/-- The dictionaries read from the beginning of a file. -/
theorem cut_dicts {d : Char} (hd : d ≠ '"' ∧ d ≠ '\n' ∧ d ≠ '\r') (windows : Bool) (rows : List (List (List Char)))
    (hp : PlainRows d rows) (text : List Char) (out : List (List (List Char))) (hc : CutOff d windows rows text out) :
    dictRead d text = .ok (out.tail.map (dictZip (out.head?.getD []))) := by
  obtain ⟨rs, h1, h2, _, h4⟩ := cut_read hd windows rows hp _ out hc
  unfold dictRead
  rw [h1, ok_bind]
  cases rs with
  | nil =>
    have : out = [] := by rw [← h2]; rfl
    rw [this]; rfl
  | cons a l =>
    cases out with
    | nil => cases h4
    | cons b o =>
      have hab : a = b := by simpa using h4
      subst hab
      have : l.filter (· ≠ []) = o := by
        rw [List.filter_cons] at h2
        split at h2
        · rw [List.cons.injEq] at h2; exact h2.2
        · exfalso
          rename_i hne
          simp only [ne_eq, decide_not, Bool.not_eq_true', decide_eq_false_iff_not, not_not] at hne
          have hin : a ∈ l.filter (· ≠ []) := by rw [h2]; simp
          rw [List.mem_filter] at hin
          simp [hne] at hin
      dsimp only
      rw [this]; rfl

section
variable {ν : Type}

theorem dictZip_whole (header : List String) (render : ν → List Char) (r : Row ν) :
    dictZip (header.map String.toList) (header.map (valueText render r)) = wholeRow render header r :=
  dictZip_map header String.toList (valueText render r)

theorem dictZip_cut (header : List String) (render : ν → List Char) (r : Row ν) (j : ℕ) (f : List Char)
    (hj : j < header.length) :
    dictZip (header.map String.toList) ((header.map (valueText render r)).take j ++ [f]) = cutRow render header r j f := by
  have hnone : ∀ l : List String, dictZip (l.map String.toList) [] = l.map fun n => (n.toList, none) := by
    intro l
    induction l with
    | nil => rfl
    | cons a l ih => rw [List.map_cons, dictZip, ih]; rfl
  unfold cutRow
  induction header generalizing j with
  | nil => simp at hj
  | cons a l ih =>
    cases j with
    | zero =>
      rw [List.map_cons, List.map_cons, List.take_zero, List.nil_append, dictZip, hnone, List.mapIdx_cons]
      simp only [lt_self_iff_false, if_false, if_true]
      congr 1
      rw [List.mapIdx_eq_zipIdx_map]
      apply List.ext_getElem
      · simp
      · intro i h1 h2
        simp
    | succ j =>
      rw [List.map_cons, List.map_cons, List.take_succ_cons, List.cons_append, dictZip, ih j (by simpa using hj), List.mapIdx_cons]
      simp

/-- The rows of the written table, as texts. -/
theorem table_texts {log : Log ν} {t : CsvTable ν} (h : writeValues log = .ok (some t)) (render : ν → List Char) :
    t.rows.map (fun r => r.map (cellText render)) = log.map fun r => t.header.map (valueText render r) := by
  unfold writeValues at h
  cases log with
  | nil => cases h
  | cons r0 rest =>
    obtain ⟨rows, hm, h⟩ := bind_ok_iff.mp h
    rw [pure_ok_iff, Option.some.injEq] at h
    subst h
    have hrows := csvRows_ok hm
    dsimp only
    rw [hrows, List.map_map]
    apply List.map_congr_left
    intro r _
    rw [Function.comp, List.map_map]
    apply List.map_congr_left
    intro k _
    simp only [Function.comp, valueText]
    cases r.get? k <;> rfl

/-- The header and the rows of a table, as plain texts. -/
theorem plain_rows_of {log : Log ν} {t : CsvTable ν} (h : writeValues log = .ok (some t)) (render : ν → List Char)
    (hcols : 2 ≤ t.header.length) (hnames : ∀ n ∈ t.header, PlainText ',' n.toList) (hrender : ∀ x, PlainText ',' (render x)) :
    PlainRows ',' (t.header.map String.toList :: log.map fun r => t.header.map (valueText render r)) := by
  have hvt : ∀ (r : Row ν) (name : String), PlainText ',' (valueText render r name) := by
    intro r name
    unfold valueText
    cases r.get? name with
    | none => intro c hc; cases hc
    | some x => exact hrender x
  have hlen : ∀ r ∈ (t.header.map String.toList :: log.map fun r => t.header.map (valueText render r)), r.length = t.header.length := by
    intro r hr
    rcases List.mem_cons.mp hr with rfl | hr
    · simp
    · obtain ⟨q, _, rfl⟩ := List.mem_map.mp hr
      simp
  refine ⟨fun r hr e => ?_, fun r hr e => ?_, ?_⟩
  · have := hlen r hr; rw [e] at this; simp at this; omega
  · have := hlen r hr; rw [e] at this; simp at this; omega
  · intro r hr f hf
    rcases List.mem_cons.mp hr with rfl | hr
    · obtain ⟨m, hm, rfl⟩ := List.mem_map.mp hf
      exact hnames m hm
    · obtain ⟨q, _, rfl⟩ := List.mem_map.mp hr
      obtain ⟨m, _, rfl⟩ := List.mem_map.mp hf
      exact hvt q m

/-- **C100**. A result file of at least two columns that was cut off after `n` characters -- the program was killed or the
    disk was full while the file was written -- is read as the first rows of the log, in order and unchanged, and possibly
    one row more, cut in column `j`: the columns before have their values, of the value in column `j` some characters are
    missing, the columns after are None. Every row whose line was written completely is there. A file cut in its header has
    no rows. The reader never complains. -/
theorem C100_cut_result (log : Log ν) (t : CsvTable ν) (h : writeValues log = .ok (some t)) (render : ν → List Char)
    (hcols : 2 ≤ t.header.length) (hnames : ∀ n ∈ t.header, PlainText ',' n.toList) (hrender : ∀ x, PlainText ',' (render x))
    (windows : Bool) (n : ℕ) :
    ∃ rows, dictRead ',' ((stored windows (t.text render)).take n) = .ok rows ∧
      (∃ k, k ≤ log.length ∧ (rows = (log.take k).map (wholeRow render t.header) ∨
        ∃ r j name f g, log[k]? = some r ∧ t.header[j]? = some name ∧ valueText render r name = f ++ g ∧
          rows = (log.take k).map (wholeRow render t.header) ++ [cutRow render t.header r j f])) ∧
      ∀ i, i ≤ log.length → (stored windows (CsvTable.text render { t with rows := t.rows.take i })).length ≤ n →
        (log.take i).map (wholeRow render t.header) <+: rows := by
  have htext : ∀ i, CsvTable.text render { t with rows := t.rows.take i } =
      csvWrite ',' ((t.header.map String.toList :: log.map fun r => t.header.map (valueText render r)).take (i + 1)) := by
    intro i
    unfold CsvTable.text
    dsimp only
    rw [List.take_succ_cons, List.map_take, table_texts h render]
  have hall : t.text render = csvWrite ',' (t.header.map String.toList :: log.map fun r => t.header.map (valueText render r)) := by
    unfold CsvTable.text
    rw [table_texts h render]
  set rows := t.header.map String.toList :: log.map fun r => t.header.map (valueText render r) with hrows
  have hp : PlainRows ',' rows := plain_rows_of h render hcols hnames hrender
  rw [hall]
  obtain ⟨out, hc⟩ := cut_cases comma_delim windows rows hp n
  -- the dictionaries
  have hread := cut_dicts comma_delim windows rows hp _ out hc
  refine ⟨_, hread, ?_, ?_⟩
  · -- the shape
    have hwhole : ∀ l : Log ν, (l.map fun r => t.header.map (valueText render r)).map (dictZip (t.header.map String.toList)) =
        l.map (wholeRow render t.header) := by
      intro l
      rw [List.map_map]
      exact List.map_congr_left fun r _ => dictZip_whole t.header render r
    -- complete records
    have hcomplete : ∀ pre post, rows = pre ++ post → ∃ k, k ≤ log.length ∧
        pre.tail.map (dictZip (pre.head?.getD [])) = (log.take k).map (wholeRow render t.header) := by
      intro pre post hpp
      cases pre with
      | nil => exact ⟨0, by omega, rfl⟩
      | cons a pre =>
        rw [hrows, List.cons_append, List.cons.injEq] at hpp
        obtain ⟨rfl, hpp⟩ := hpp
        have hk : pre = (log.take pre.length).map fun r => t.header.map (valueText render r) := by
          rw [List.map_take, hpp, List.take_left]
        have hle : pre.length ≤ log.length := by
          have := congrArg List.length hpp
          rw [List.length_map, List.length_append] at this; omega
        refine ⟨pre.length, hle, ?_⟩
        show pre.map (dictZip (t.header.map String.toList)) = _
        conv_lhs => rw [hk]
        exact hwhole _
    generalize htx : (stored windows (csvWrite ',' rows)).take n = text at hc
    cases hc with
    | between _ post hpp =>
      obtain ⟨k, hk, e⟩ := hcomplete _ _ hpp
      exact ⟨k, hk, Or.inl e⟩
    | inNewline pre post r hpp e he =>
      obtain ⟨k, hk, e⟩ := hcomplete (pre ++ [r]) post (by rw [hpp]; simp)
      exact ⟨k, hk, Or.inl e⟩
    | inside pre post fs f g rest hpp hne =>
      cases pre with
      | nil =>
        refine ⟨0, by omega, Or.inl ?_⟩
        rfl
      | cons a pre =>
        rw [hrows, List.cons_append, List.cons.injEq] at hpp
        obtain ⟨rfl, hpp⟩ := hpp
        have hle : pre.length < log.length := by
          have := congrArg List.length hpp
          rw [List.length_map, List.length_append, List.length_cons] at this; omega
        have hk : pre = (log.take pre.length).map fun r => t.header.map (valueText render r) := by
          rw [List.map_take, hpp, List.take_left]
        have hr : t.header.map (valueText render log[pre.length]) = fs ++ (f ++ g) :: rest := by
          have := congrArg (fun l => l[pre.length]?) hpp
          simp only [List.getElem?_map, List.getElem?_eq_getElem hle, Option.map_some] at this
          rw [List.getElem?_append_right le_rfl, Nat.sub_self, List.getElem?_cons_zero, Option.some.injEq] at this
          exact this
        have hfl : fs.length < t.header.length := by
          have := congrArg List.length hr
          rw [List.length_map, List.length_append, List.length_cons] at this; omega
        refine ⟨pre.length, hle.le, Or.inr ⟨log[pre.length], fs.length, t.header[fs.length], f, g,
          List.getElem?_eq_getElem hle, List.getElem?_eq_getElem hfl, ?_, ?_⟩⟩
        · have := congrArg (fun l => l[fs.length]?) hr
          simp only [List.getElem?_map, List.getElem?_eq_getElem hfl, Option.map_some] at this
          rw [List.getElem?_append_right le_rfl, Nat.sub_self, List.getElem?_cons_zero, Option.some.injEq] at this
          exact this
        · show (pre ++ [fs ++ [f]]).map (dictZip (t.header.map String.toList)) = _
          rw [List.map_append, List.map_singleton]
          congr 1
          · conv_lhs => rw [hk]
            exact hwhole _
          · rw [← dictZip_cut t.header render _ fs.length f hfl, hr, List.take_left]
  · intro i hi hlen
    rw [htext] at hlen
    have hpre := cut_keeps comma_delim windows rows hp n out hc (i + 1) hlen
    obtain ⟨s, hs⟩ := hpre
    rw [hrows, List.take_succ_cons] at hs
    rw [← hs]
    show _ <+: (((log.map fun r => t.header.map (valueText render r)).take i ++ s).map (dictZip (t.header.map String.toList)))
    rw [List.map_append, ← List.map_take, List.map_map]
    have : (log.take i).map (dictZip (t.header.map String.toList) ∘ fun r => t.header.map (valueText render r)) =
        (log.take i).map (wholeRow render t.header) :=
      List.map_congr_left fun r _ => dictZip_whole t.header render r
    rw [this]
    exact List.prefix_append _ _

theorem cutRow_map (render : ν → List Char) (header : List String) (hnd : header.Nodup) (r : Row ν) (j : ℕ) (f : List Char) :
    cutRow render header r j f = header.map fun name => (name.toList, if header.idxOf name < j then some (valueText render r name)
      else if header.idxOf name = j then some f else none) := by
  unfold cutRow
  apply List.ext_getElem
  · simp
  · intro i h1 h2
    simp only [List.getElem_mapIdx, List.getElem_map]
    rw [hnd.idxOf_getElem]

theorem field_cut (render : ν → List Char) (header : List String) (hnd : header.Nodup) (r : Row ν) (j : ℕ) (f : List Char)
    (name : String) :
    dictField (cutRow render header r j f) name = if name ∈ header then .ok (if header.idxOf name < j then
      some (valueText render r name) else if header.idxOf name = j then some f else none) else .error .keyError := by
  rw [cutRow_map render header hnd r j f]
  exact dictField_row header (fun name => if header.idxOf name < j then some (valueText render r name)
      else if header.idxOf name = j then some f else none) name

/-- **C100**, a column. The file was cut in the row `r`, in the column number `j`, of whose value `f` was written. A reader of
    column number `i`, for which the rows before can be read: before the cut column it gets the value of `r`; in the cut
    column it gets whatever number `f` denotes, and a ValueError if `f` is no number; behind it, a TypeError (`float(None)`). -/
theorem C100_column {α : Type} (log : Log ν) (t : CsvTable ν) (h : writeValues log = .ok (some t)) (render : ν → List Char)
    (hcols : 2 ≤ t.header.length) (hnd : t.header.Nodup) (hnames : ∀ n ∈ t.header, PlainText ',' n.toList)
    (hrender : ∀ x, PlainText ',' (render x)) (windows : Bool) (pf : List Char → Option α)
    (k j i : ℕ) (r : Row ν) (cutName name : String) (f g : List Char) (hr : log[k]? = some r) (hj : t.header[j]? = some cutName)
    (hf : valueText render r cutName = f ++ g) (hne : j ≠ 0 ∨ f ≠ []) (hi : t.header[i]? = some name) (xs : List α)
    (hxs : textColumn pf (stored windows (CsvTable.text render { t with rows := t.rows.take k })) name = .ok xs) :
    ∃ n, (stored windows (t.text render)).take n = stored windows (CsvTable.text render { t with rows := t.rows.take k }) ++
        List.intercalate [','] ((t.header.take j).map (valueText render r) ++ [f]) ∧
      (i < j → ∀ x, pf (valueText render r name) = some x →
        textColumn pf ((stored windows (t.text render)).take n) name = .ok (xs ++ [x])) ∧
      (i = j → ∀ x, pf f = some x → textColumn pf ((stored windows (t.text render)).take n) name = .ok (xs ++ [x])) ∧
      (i = j → pf f = none → textColumn pf ((stored windows (t.text render)).take n) name = .error .valueError) ∧
      (j < i → textColumn pf ((stored windows (t.text render)).take n) name = .error .typeError) := by
  have hall : t.text render = csvWrite ',' (t.header.map String.toList :: log.map fun r => t.header.map (valueText render r)) := by
    unfold CsvTable.text
    rw [table_texts h render]
  have hfirst : CsvTable.text render { t with rows := t.rows.take k } =
      csvWrite ',' (t.header.map String.toList :: (log.take k).map fun r => t.header.map (valueText render r)) := by
    unfold CsvTable.text
    dsimp only
    rw [List.map_take, table_texts h render, List.map_take]
  have hp := plain_rows_of h render hcols hnames hrender
  obtain ⟨hklt, hkr⟩ := List.getElem?_eq_some_iff.mp hr
  obtain ⟨hjlt, hjn⟩ := List.getElem?_eq_some_iff.mp hj
  obtain ⟨hilt, hin⟩ := List.getElem?_eq_some_iff.mp hi
  set rows := t.header.map String.toList :: log.map fun r => t.header.map (valueText render r) with hrows
  have hsplit : rows = (t.header.map String.toList :: (log.take k).map fun r => t.header.map (valueText render r)) ++
      (((t.header.take j).map (valueText render r)) ++ (f ++ g) :: (t.header.drop (j + 1)).map (valueText render r)) ::
        (log.drop (k + 1)).map fun r => t.header.map (valueText render r) := by
    rw [hrows, List.cons_append]
    congr 1
    rw [← hf]
    have e1 : t.header.map (valueText render r) = (t.header.take j).map (valueText render r) ++
        valueText render r cutName :: (t.header.drop (j + 1)).map (valueText render r) := by
      conv_lhs => rw [← List.take_append_drop j t.header, List.drop_eq_getElem_cons hjlt, hjn]
      rw [List.map_append, List.map_cons]
    rw [← e1]
    conv_lhs => rw [← List.take_append_drop k log, List.drop_eq_getElem_cons hklt, hkr]
    rw [List.map_append, List.map_cons]
  have hcut := CutOff.inside (d := ',') (windows := windows) _ _ _ f g _ hsplit (by
    rcases hne with h0 | h0
    · left
      intro e
      have := congrArg List.length e
      rw [List.length_map, List.length_take, List.length_nil] at this
      omega
    · exact Or.inr h0)
  have hread := cut_dicts comma_delim windows rows hp _ _ hcut
  have hread0 := cut_dicts comma_delim windows rows hp _ _ (CutOff.between (d := ',') (windows := windows) _ _ hsplit)
  obtain ⟨n, hn⟩ : ∃ n, (stored windows (csvWrite ',' rows)).take n = stored windows (csvWrite ','
      (t.header.map String.toList :: (log.take k).map fun r => t.header.map (valueText render r))) ++
        List.intercalate [','] ((t.header.take j).map (valueText render r) ++ [f]) := by
    have hpre := cut_inside_prefix comma_delim windows _ _ _ f g _ (by rw [← hsplit]; exact hp)
    rw [← hsplit] at hpre
    exact ⟨_, (List.prefix_iff_eq_take.mp hpre).symm⟩
  rw [← hfirst] at hn hread hread0
  rw [← hall] at hn
  refine ⟨n, hn, ?_⟩
  rw [hn]
  have hcol : textColumn pf (stored windows (CsvTable.text render { t with rows := t.rows.take k }) ++
        List.intercalate [','] ((t.header.take j).map (valueText render r) ++ [f])) name =
      (dictFloat pf (cutRow render t.header r j f) name).bind fun x => .ok (xs ++ [x]) := by
    unfold textColumn at hxs ⊢
    rw [hread0, ok_bind] at hxs
    rw [hread, ok_bind]
    simp only [List.tail_cons, List.head?_cons, Option.getD_some, List.cons_append] at hxs ⊢
    rw [List.map_append, List.map_singleton, List.mapM_append, hxs, ok_bind, ← dictZip_cut t.header render r j f hjlt, List.map_take]
    rw [List.mapM_cons, List.mapM_nil]
    cases dictFloat pf (dictZip (t.header.map String.toList) ((t.header.map (valueText render r)).take j ++ [f])) name <;> rfl
  have hcell : dictField (cutRow render t.header r j f) name =
      .ok (if i < j then some (valueText render r name) else if i = j then some f else none) := by
    have hidx : t.header.idxOf name = i := by rw [← hin, hnd.idxOf_getElem]
    rw [field_cut render t.header hnd, if_pos (by rw [← hin]; exact List.getElem_mem hilt), hidx]
  rw [hcol]
  unfold dictFloat
  rw [hcell, ok_bind]
  refine ⟨fun hlt x hx => ?_, fun he x hx => ?_, fun he hx => ?_, fun hlt => ?_⟩
  · rw [if_pos hlt]; dsimp only; rw [hx]; rfl
  · rw [if_neg (by omega), if_pos he]; dsimp only; rw [hx]; rfl
  · rw [if_neg (by omega), if_pos he]; dsimp only; rw [hx]; rfl
  · rw [if_neg (by omega), if_neg (by omega)]; rfl
end

/-- A reader of decimal numbers for the example. -/
def digitsNumber (t : List Char) : Option ℕ :=
  if t ≠ [] ∧ t.all Char.isDigit then some (t.foldl (fun n c => 10 * n + (c.toNat - 48)) 0) else none

def cutLog : Log (List Char) := [[("a", ['1']), ("b", ['5', '6'])], [("a", ['2']), ("b", ['1', '2', '3', '4'])]]

/-- **C100**, non-vacuity: of a table of two columns and two rows the last value was cut from `1234` to `12`. The reader takes
    `12` for the value, without complaint: a truncated file can show a wrong number. Cut two characters earlier it is a
    TypeError. -/
theorem C100_wrong_number : ∃ t : CsvTable (List Char), writeValues cutLog = .ok (some t) ∧
    textColumn digitsNumber (t.text id) "b" = .ok [56, 1234] ∧
    ∃ n, textColumn digitsNumber ((t.text id).take n) "b" = .ok [56, 12] ∧
      ∃ m, textColumn digitsNumber ((t.text id).take m) "b" = .error .typeError := by
  refine ⟨⟨["a", "b"], [[some ['1'], some ['5', '6']], [some ['2'], some ['1', '2', '3', '4']]]⟩, rfl, by decide, 15, by decide, 12, by decide⟩

/-- The hypotheses of `C100_cut_result` and `C100_column` hold for that table. -/
example : ∃ t : CsvTable (List Char), writeValues cutLog = .ok (some t) ∧ 2 ≤ t.header.length ∧ t.header.Nodup ∧
    (∀ n ∈ t.header, PlainText ',' n.toList) ∧ (∀ r ∈ cutLog, ∀ n ∈ t.header, PlainText ',' (valueText id r n)) :=
  ⟨⟨["a", "b"], [[some ['1'], some ['5', '6']], [some ['2'], some ['1', '2', '3', '4']]]⟩, rfl, by decide, by decide,
    by unfold PlainText; decide, by unfold PlainText; decide⟩

end PyFlowGo
