import Verif.Proofs.CsvLemmas
import Verif.Props.Logger
import Verif.Model.RunOuts
import Verif.Model.RealNum
/-
  C74: the result file as text.
-/
set_option linter.unusedSectionVars false
namespace PyFlowGo
open Spec
variable {ν : Type}

theorem comma_delim : Delim ',' := by unfold Delim; decide

/-- **C74**. Whatever the separator and the fields -- with commas, quotes, line feeds, or empty -- the records that were written are the
    records that are read; on Windows an empty record follows each. Only a carriage return inside a field is excluded. -/
theorem C74_csv_reads_back (d : Char) (hd : d ≠ '"' ∧ d ≠ '\n' ∧ d ≠ '\r') (rows : List (List (List Char))) (hne : ∀ r ∈ rows, r ≠ []) (hcr : ∀ r ∈ rows, ∀ f ∈ r, '\r' ∉ f) :
    csvRead d (stored false (csvWrite d rows)) = .ok rows ∧
    csvRead d (stored true (csvWrite d rows)) = .ok (rows.flatMap fun r => [r, []]) :=
  ⟨csvRead_write hd rows hne hcr false, csvRead_write hd rows hne hcr true⟩

/-- **C74**: a carriage return inside a field comes back as a line feed. -/
theorem C74_carriage_return_is_lost : csvRead ',' (csvWrite ',' [[['a', '\r', 'b']]]) = .ok [[['a', '\n', 'b']]] := by decide

theorem dictZip_map {κ : Type} (header : List κ) (name text : κ → List Char) :
    dictZip (header.map name) (header.map text) = header.map fun k => (name k, some (text k)) := by
  induction header with
  | nil => rfl
  | cons k ks ih => simp [dictZip, ih]

/-- **C74**. The dictionaries a reader of the result file gets are the rows of the log: one per row, in order, and under
    every column name the text of the logged value, or the empty text. -/
theorem C74_result_file (log : Log ν) (t : CsvTable ν) (h : writeValues log = .ok (some t)) (render : ν → List Char)
    (hh : t.header ≠ []) (hn : ∀ n ∈ t.header, '\r' ∉ n.toList) (hcr : ∀ x, '\r' ∉ render x) (windows : Bool) :
    dictRead ',' (stored windows (t.text render)) = .ok (log.map fun r => t.header.map fun n =>
      (n.toList, some ((r.get? n).elim [] render))) := by
  unfold writeValues at h
  cases log with
  | nil => cases h
  | cons r0 rest =>
    obtain ⟨rows, hm, h⟩ := bind_ok_iff.mp h
    rw [pure_ok_iff, Option.some.injEq] at h
    subst h
    have hrows := csvRows_ok hm
    unfold CsvTable.text
    dsimp only at hh hn ⊢
    have e : rows.map (fun r => r.map (cellText render)) =
        (r0 :: rest).map fun r => r0.keys.map fun k => cellText render (r.get? k) := by
      rw [hrows, List.map_map]
      apply List.map_congr_left
      intro r _
      simp [Function.comp]
    rw [e, dictRead_write comma_delim]
    · rw [List.map_map]
      congr 1
      apply List.map_congr_left
      intro r _
      simp only [Function.comp]
      rw [dictZip_map]
      apply List.map_congr_left
      intro k _
      cases r.get? k <;> rfl
    · simpa using hh
    · intro r hr
      obtain ⟨q, _, rfl⟩ := List.mem_map.mp hr
      simpa using hh
    · intro f hf
      obtain ⟨n, hn', rfl⟩ := List.mem_map.mp hf
      exact hn n hn'
    · intro r hr f hf
      obtain ⟨q, _, rfl⟩ := List.mem_map.mp hr
      obtain ⟨n, _, rfl⟩ := List.mem_map.mp hf
      cases hq : q.get? n with
      | none => simp [cellText]
      | some x => exact hcr x

theorem lookup_map_fun {κ β : Type} [BEq κ] [LawfulBEq κ] (l : List String) (f : String → κ) (hf : Function.Injective f)
    (g : String → β) (n : String) :
    (l.map fun k => (f k, g k)).lookup (f n) = if n ∈ l then some (g n) else none := by
  induction l with
  | nil => simp
  | cons k l ih =>
    rw [List.map_cons, List.lookup_cons, ih]
    by_cases hk : n = k
    · subst hk; simp
    · have : (f n == f k) = false := by simpa using fun h => hk (hf h)
      simp [this, hk]

theorem dictField_row (l : List String) (g : String → Option (List Char)) (n : String) :
    dictField (l.map fun k => (k.toList, g k)) n = if n ∈ l then .ok (g n) else .error .keyError := by
  unfold dictField
  rw [← List.map_reverse, lookup_map_fun _ String.toList (fun a b h => String.toList_inj.mp h)]
  by_cases h : n ∈ l <;> simp [h]

/-- **C74**. Reading a column of numbers from the text of the result file is reading it from the table: `float(row[name])`
    gives the logged numbers, in order, fails with a ValueError exactly on an empty cell and with a KeyError on a name
    that is no column. The only thing asked of the number format is that `float(str(x))` is `x`. -/
theorem C74_columns {α : Type} (log : Log (Cell α)) (t : CsvTable (Cell α)) (h : writeValues log = .ok (some t))
    (render : Cell α → List Char) (pf : List Char → Option α)
    (hnum : ∀ x, pf (render (.num x)) = some x) (htext : ∀ x, pf (render (.text x)) = some x) (hempty : pf [] = none)
    (hh : t.header ≠ []) (hn : ∀ n ∈ t.header, '\r' ∉ n.toList) (hcr : ∀ x, '\r' ∉ render x) (windows : Bool)
    (name : String) :
    textColumn pf (stored windows (t.text render)) name = floatColumn t name := by
  unfold textColumn
  rw [C74_result_file log t h render hh hn hcr windows, ok_bind, List.mapM_map]
  unfold floatColumn
  by_cases hname : name ∈ t.header
  · rw [(C01_csv_rows_are_the_log log t h).2 name hname, ok_bind]
    unfold Log.getValues
    rw [List.mapM_map]
    congr 1
    funext r
    simp only [Function.comp, dictFloat]
    rw [dictField_row t.header (fun n => some ((r.get? n).elim [] render)) name, if_pos hname,
      ok_bind]
    dsimp only
    cases r.get? name with
    | none => simp [hempty]
    | some c => cases c <;> simp [hnum, htext]
  · have h1 : t.column name = .error .keyError := by
      unfold CsvTable.column
      rw [List.findIdx?_eq_none_iff.mpr (fun x hx => by simpa using fun e : x = name => hname (e ▸ hx))]
    rw [h1]
    cases log with
    | nil => cases h
    | cons r0 rest =>
      rw [List.mapM_cons]
      simp only [Function.comp, dictFloat]
      rw [dictField_row t.header (fun n => some ((r0.get? n).elim [] render)) name, if_neg hname]
      rfl

/-- **C74**: a log of two rows, the second of them short, written on Windows. -/
example : ∃ (log : Log (Cell ℕ)) (t : CsvTable (Cell ℕ)) (render : Cell ℕ → List Char) (pf : List Char → Option ℕ),
    writeValues log = .ok (some t) ∧ t.header = ["position", "a,b"] ∧ t.rows.length = 2 ∧
    (∀ n ∈ t.header, '\r' ∉ n.toList) ∧ (∀ x, '\r' ∉ render x) ∧ pf [] = none ∧
    (∀ x, pf (render (.num x)) = some x) ∧ (∀ x, pf (render (.text x)) = some x) ∧
    stored false (t.text render) = "position,\"a,b\"\r\n1,111\r\n11,\r\n".toList := by
  refine ⟨[[("position", .num 0), ("a,b", .num 2)], [("position", .text 1)]],
    ⟨["position", "a,b"], [[some (.num 0), some (.num 2)], [some (.text 1), none]]⟩,
    fun c => match c with | .num x => List.replicate (x + 1) '1' | .text x => List.replicate (x + 1) '1',
    fun f => match f with | [] => none | _ :: r => some r.length, rfl, rfl, rfl, ?_, ?_, rfl, ?_, ?_, ?_⟩
  · decide
  · intro x; cases x <;> · intro h; have := List.eq_of_mem_replicate h; revert this; decide
  · intro x; simp [List.replicate_succ]
  · intro x; simp [List.replicate_succ]
  · decide

end PyFlowGo
