import Verif.Proofs.LogLemmas
import Verif.Model.Csv
/-
  C01, C02: the logger.
-/
namespace PyFlowGo
open Spec
variable {ν : Type} [BEq ν] [LawfulBEq ν]

/-- **C01** (log). For any history of `add_variable` calls (none of which uses the reserved column name
    "position"), the column "position" lists the distinct positions in order of first write, and every
    other column holds, for each of these positions, the value of the last call with that position and
    name, or nothing. -/
theorem C01_logger_last_write_wins (ops : List (LogOp ν)) (hn : ∀ o ∈ ops, o.name ≠ "position") :
    (history ops).getValues "position" = (writtenPositions ops).map some ∧
    ∀ name, name ≠ "position" →
      (history ops).getValues name = (writtenPositions ops).map (fun p => lastWrite ops p name) :=
  history_columns ops hn

omit [BEq ν] [LawfulBEq ν] in
theorem csvRow_ok {header : List String} {r : Row ν} {cells : List (Option ν)}
    (h : csvRow header r = .ok cells) : cells = header.map (fun k => r.get? k) := by
  unfold csvRow at h
  split at h
  · injection h with h; exact h.symm
  · cases h

omit [BEq ν] [LawfulBEq ν] in
theorem csvRows_ok {header : List String} {log : List (Row ν)} {rows : List (List (Option ν))}
    (h : log.mapM (csvRow header) = .ok rows) :
    rows = log.map (fun r => header.map (fun k => r.get? k)) := by
  induction log generalizing rows with
  | nil => simp only [List.mapM_nil] at h; injection h with h; simp [← h]
  | cons r rest ih =>
    rw [List.mapM_cons] at h
    cases hr : csvRow header r with
    | error e => rw [hr] at h; cases h
    | ok c =>
      rw [hr] at h
      cases hrest : rest.mapM (csvRow header) with
      | error e => rw [hrest] at h; cases h
      | ok cs =>
        rw [hrest] at h
        injection h with h
        rw [← h, List.map_cons, ← ih hrest, csvRow_ok hr]

omit [BEq ν] [LawfulBEq ν] in
/-- **C01** (file). Whatever the log, the written file has one line per log row, in order, and the cell
    of a column is the logged value (empty when absent). -/
theorem C01_csv_rows_are_the_log (log : Log ν) (t : CsvTable ν) (h : writeValues log = .ok (some t)) :
    t.rows.length = log.length ∧
    ∀ name ∈ t.header, t.column name = .ok (log.getValues name) := by
  unfold writeValues at h
  cases log with
  | nil => injection h with h; cases h
  | cons r0 rest =>
    simp only at h
    cases hm : (r0 :: rest).mapM (csvRow r0.keys) with
    | error e => rw [hm] at h; cases h
    | ok rows =>
      rw [hm] at h
      injection h with h
      injection h with h
      subst h
      have hrows := csvRows_ok hm
      refine ⟨by simp [hrows], fun name hname => ?_⟩
      unfold CsvTable.column
      simp only at hname ⊢
      cases hi : r0.keys.findIdx? (· == name) with
      | none =>
        rw [List.findIdx?_eq_none_iff] at hi
        exact absurd (hi name hname) (by simp)
      | some i =>
        simp only [hrows, List.map_map, Except.ok.injEq, Log.getValues]
        obtain ⟨hlt, hbeq, _⟩ := List.findIdx?_eq_some_iff_getElem.mp hi
        apply List.map_congr_left
        intro r _
        simp only [Function.comp]
        rw [List.getElem?_map, List.getElem?_eq_getElem hlt]
        simp only [beq_iff_eq] at hbeq
        simp [hbeq]

/-- **C02**. All columns have the same length, the number of distinct positions; index `i` of every
    column belongs to the `i`-th position in order of first write. -/
theorem C02_columns_aligned (ops : List (LogOp ν)) (hn : ∀ o ∈ ops, o.name ≠ "position")
    (a b : String) :
    ((history ops).getValues a).length = ((history ops).getValues b).length ∧
    ((history ops).getValues a).length = (writtenPositions ops).length ∧
    (history ops).getValues "position" = (writtenPositions ops).map some ∧
    (writtenPositions ops).Nodup ∧
    ∀ (i : Nat) (p : ν), (writtenPositions ops)[i]? = some p → a ≠ "position" →
      ((history ops).getValues a)[i]? = some (lastWrite ops p a) := by
  obtain ⟨h1, h2⟩ := history_columns ops hn
  have hlen : ∀ c, ((history ops).getValues c).length = (writtenPositions ops).length := by
    intro c
    have : ((history ops).getValues c).length = ((history ops).getValues "position").length := by
      simp [Log.getValues]
    rw [this, h1, List.length_map]
  refine ⟨by rw [hlen a, hlen b], hlen a, h1, writtenPositions_nodup ops, fun i p hi ha => ?_⟩
  rw [h2 a ha, List.getElem?_map, hi]
  rfl

/-- The restriction to names other than "position" is needed: such a call renames the row. -/
theorem C01_position_name_renames_row :
    (history [⟨"position", 1, 5⟩] : Log Nat).getValues "position" = [some 5] := rfl

/-- Non-trivial history meeting the hypothesis: two positions, one rewritten cell. -/
example : let ops : List (LogOp Nat) := [⟨"v", 0, 1⟩, ⟨"w", 0, 2⟩, ⟨"v", 10, 3⟩, ⟨"v", 0, 4⟩]
    (∀ o ∈ ops, o.name ≠ "position") ∧ writtenPositions ops = [0, 10] ∧
    (history ops).getValues "v" = [some 4, some 3] ∧ (history ops).getValues "w" = [some 2, none] := by
  decide

end PyFlowGo
