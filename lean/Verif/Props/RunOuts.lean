import Verif.Spec.RunOutSpec
import Verif.Props.RunRows
/-
  C59, C60: the run-out table.
-/
set_option linter.unusedSectionVars false
namespace PyFlowGo
open Spec

theorem mapM_cells {α : Type} (col : List (Option (Cell α))) (xs : List α) :
    (col.mapM fun c => match c with
      | some (.num x) => (.ok x : Except Err α)
      | some (.text x) => .ok x
      | none => .error .valueError) = .ok xs ↔
      ∃ cells : List (Cell α), col = cells.map some ∧ xs = cells.map cellNumber := by
  induction col generalizing xs with
  | nil =>
    rw [List.mapM_nil]
    constructor
    · intro h
      injection h with h
      exact ⟨[], rfl, h.symm⟩
    · rintro ⟨cells, h1, h2⟩
      have : cells = [] := by simpa using h1.symm
      rw [h2, this]; rfl
  | cons c rest ih =>
    rw [List.mapM_cons, bind_ok_iff]
    constructor
    · rintro ⟨x, hx, h⟩
      obtain ⟨ys, hy, h⟩ := bind_ok_iff.mp h
      rw [pure_ok_iff] at h
      obtain ⟨cells, h1, h2⟩ := (ih ys).mp hy
      cases c with
      | none => cases hx
      | some cell =>
        cases cell with
        | num z =>
          injection hx with hx
          exact ⟨.num z :: cells, by rw [h1]; rfl, by rw [← h, h2, ← hx]; rfl⟩
        | text z =>
          injection hx with hx
          exact ⟨.text z :: cells, by rw [h1]; rfl, by rw [← h, h2, ← hx]; rfl⟩
    · rintro ⟨cells, h1, h2⟩
      cases cells with
      | nil => cases h1
      | cons cell cells =>
        rw [List.map_cons, List.cons.injEq] at h1
        obtain ⟨rfl, h1⟩ := h1
        refine ⟨cellNumber cell, by cases cell <;> rfl, ?_⟩
        rw [(ih (cells.map cellNumber)).mpr ⟨cells, h1, rfl⟩, ok_bind, pure_ok_iff, h2]
        rfl

theorem writeValues_header {ν : Type} {log : Log ν} {t : CsvTable ν} (h : writeValues log = .ok (some t)) :
    ∃ r0 rest, log = r0 :: rest ∧ t.header = r0.keys := by
  cases log with
  | nil => injection h with h; cases h
  | cons r0 rest =>
    unfold writeValues at h
    obtain ⟨rows, _, h⟩ := bind_ok_iff.mp h
    rw [pure_ok_iff] at h
    injection h with h
    exact ⟨r0, rest, rfl, by rw [← h]⟩

theorem get?_some_mem {ν : Type} {r : Row ν} {k : String} {v : ν} (h : r.get? k = some v) : k ∈ r.keys := by
  unfold Row.get? at h
  rw [Option.map_eq_some_iff] at h
  obtain ⟨kv, h1, _⟩ := h
  have := List.find?_some h1
  exact List.mem_map.mpr ⟨kv, List.mem_of_find?_eq_some h1, by simpa using this⟩

theorem mem_get?_some {ν : Type} {r : Row ν} {k : String} (h : k ∈ r.keys) : ∃ v, r.get? k = some v := by
  obtain ⟨kv, h1, h2⟩ := List.mem_map.mp h
  unfold Row.get?
  cases hf : r.find? (fun kv => kv.1 == k) with
  | none =>
    rw [List.find?_eq_none] at hf
    exact absurd (by simpa using h2) (hf kv h1)
  | some x => exact ⟨x.2, rfl⟩

/-- A column without gaps. -/
theorem columnIs_iff (log : Log (Cell ℝ)) (name : String) :
    (∃ xs, ColumnIs log name xs) ↔ ∀ r ∈ log, name ∈ r.keys := by
  constructor
  · rintro ⟨xs, cells, h, _⟩ r hr
    have h1 : r.get? name ∈ log.getValues name := List.mem_map.mpr ⟨r, hr, rfl⟩
    rw [h] at h1
    obtain ⟨c, _, hc⟩ := List.mem_map.mp h1
    exact get?_some_mem hc.symm
  · intro h
    induction log with
    | nil => exact ⟨[], [], rfl, rfl⟩
    | cons r rest ih =>
      obtain ⟨xs, cells, h1, h2⟩ := ih fun x hx => h x (by simp [hx])
      obtain ⟨v, hv⟩ := mem_get?_some (h r (by simp))
      refine ⟨cellNumber v :: xs, v :: cells, ?_, by rw [h2]; rfl⟩
      unfold Log.getValues at h1 ⊢
      rw [List.map_cons, h1, hv]; rfl

theorem columnIs_unique {log : Log (Cell ℝ)} {name : String} {xs ys : List ℝ} (h1 : ColumnIs log name xs)
    (h2 : ColumnIs log name ys) : xs = ys := by
  obtain ⟨c1, a1, rfl⟩ := h1
  obtain ⟨c2, a2, rfl⟩ := h2
  rw [a1] at a2
  rw [List.map_injective_iff.mpr (Option.some_injective _) a2]

theorem columnIs_length {log : Log (Cell ℝ)} {name : String} {xs : List ℝ} (h : ColumnIs log name xs) :
    xs.length = log.length := by
  obtain ⟨c, h1, rfl⟩ := h
  have := congrArg List.length h1
  simp only [Log.getValues, List.length_map] at this ⊢
  exact this.symm

/-- Reading a column of the result file back gives the numbers of the log, and fails when some row lacks it. -/
theorem floatColumn_iff (log : Log (Cell ℝ)) (t : CsvTable (Cell ℝ)) (ht : writeValues log = .ok (some t))
    (name : String) (xs : List ℝ) : floatColumn t name = .ok xs ↔ ColumnIs log name xs := by
  obtain ⟨_, hcol⟩ := C01_csv_rows_are_the_log log t ht
  obtain ⟨r0, rest, hlog, hhead⟩ := writeValues_header ht
  unfold floatColumn
  rw [bind_ok_iff]
  constructor
  · rintro ⟨col, h1, h2⟩
    have hmem : name ∈ t.header := by
      unfold CsvTable.column at h1
      split at h1
      · cases h1
      · rename_i i hi
        obtain ⟨hlt, hbeq, _⟩ := List.findIdx?_eq_some_iff_getElem.mp hi
        simp only [beq_iff_eq] at hbeq
        rw [← hbeq]; exact List.getElem_mem hlt
    rw [hcol name hmem] at h1
    injection h1 with h1
    rw [← h1] at h2
    exact (mapM_cells _ _).mp h2
  · intro h
    have hmem : name ∈ t.header := by
      rw [hhead]
      exact (columnIs_iff log name).mp ⟨xs, h⟩ r0 (by rw [hlog]; simp)
    exact ⟨_, hcol name hmem, (mapM_cells _ _).mpr h⟩

/-- Python `max`. -/
theorem maxList_iff (xs : List ℝ) (m : ℝ) : maxList xs = .ok m ↔ m ∈ xs ∧ ∀ x ∈ xs, x ≤ m := by
  cases xs with
  | nil => simp [maxList]
  | cons a rest =>
    have key : ∀ (l : List ℝ) (a : ℝ), (l.foldl pyMax a = a ∨ l.foldl pyMax a ∈ l) ∧ a ≤ l.foldl pyMax a ∧
        ∀ x ∈ l, x ≤ l.foldl pyMax a := by
      intro l
      induction l with
      | nil => intro a; simp
      | cons b l ih =>
        intro a
        obtain ⟨h1, h2, h3⟩ := ih (pyMax a b)
        have hm : pyMax a b = max a b := pyMax_real a b
        rw [List.foldl_cons]
        rw [hm] at h1 h2 h3 ⊢
        refine ⟨?_, (le_max_left a b).trans h2, ?_⟩
        · rcases h1 with h1 | h1
          · rw [h1]
            rcases max_choice a b with h | h
            · left; exact h
            · right; rw [h]; simp
          · right; exact List.mem_cons_of_mem _ h1
        · intro x hx
          rcases List.mem_cons.mp hx with rfl | hx
          · exact (le_max_right a x).trans h2
          · exact h3 x hx
    unfold maxList
    simp only [Except.ok.injEq]
    obtain ⟨h1, h2, h3⟩ := key rest a
    constructor
    · rintro rfl
      refine ⟨?_, ?_⟩
      · rcases h1 with h1 | h1
        · rw [h1]; simp
        · exact List.mem_cons_of_mem _ h1
      · intro x hx
        rcases List.mem_cons.mp hx with rfl | hx
        · exact h2
        · exact h3 x hx
    · rintro ⟨hm, hle⟩
      apply le_antisymm
      · rcases h1 with h1 | h1
        · rw [h1]; exact hle a (by simp)
        · exact hle _ (List.mem_cons_of_mem _ h1)
      · rcases List.mem_cons.mp hm with rfl | hm
        · exact h2
        · exact h3 m hm

theorem listGet_ok_iff {α : Type} (l : List α) (i : Nat) (x : α) : listGet l i = .ok x ↔ l[i]? = some x := by
  unfold listGet
  cases l[i]? <;> simp

theorem lastOf_ok_iff {α : Type} (l : List α) (x : α) : lastOf l = .ok x ↔ l.getLast? = some x := by
  unfold lastOf
  cases l.getLast? <;> simp

/-- **C59** (the table). What `run_outs` reports for a result file: the first effusion rate, the second depth and
    width, the first profile point, and the last profile point whose distance is at most (largest position + second
    position); everything rounded. -/
theorem C59_run_out_line (round : Nat → ℝ → ℝ) (log : Log (Cell ℝ)) (t : CsvTable (Cell ℝ))
    (ht : writeValues log = .ok (some t)) (lines : List (SlopeLine ℝ)) (ro : RunOut ℝ) :
    getRunOut round t lines = .ok ro ↔
      (∀ c ∈ runOutColumns, ∀ r ∈ log, c ∈ r.keys) ∧
      ∃ xs ws ds qs, ColumnIs log "position" xs ∧ ColumnIs log "channel_width" ws ∧ ColumnIs log "channel_depth" ds ∧
        ColumnIs log "effusion_rate" qs ∧
        ∃ m q0 x1 first last, (m ∈ xs ∧ ∀ x ∈ xs, x ≤ m) ∧ qs[0]? = some q0 ∧ ds[1]? = some ro.depth ∧
          ws[1]? = some ro.widthInit ∧ xs[1]? = some x1 ∧
          (lines.filter fun l => decide (l.dist ≤ m + x1)).head? = some first ∧
          (lines.filter fun l => decide (l.dist ≤ m + x1)).getLast? = some last ∧
          ro.effusionRate = round 0 q0 ∧ ro.xInit = round 2 first.lat ∧ ro.yInit = round 2 first.lon ∧
          ro.altInit = round 1 first.elev ∧ ro.x = round 2 last.lat ∧ ro.y = round 2 last.lon ∧
          ro.alt = round 1 last.elev ∧ ro.runOut = round 0 last.dist := by
  have hfil : ∀ z : ℝ, (lines.filter fun l => leB l.dist z) = lines.filter fun l => decide (l.dist ≤ z) := by
    intro z
    refine List.filter_congr fun l _ => ?_
    rw [Bool.eq_iff_iff, leB_real, decide_eq_true_eq]
  unfold getRunOut
  simp only [bind_ok_iff, floatColumn_iff log t ht, maxList_iff, listGet_ok_iff, lastOf_ok_iff, pure_ok_iff, hfil,
    ← List.head?_eq_getElem?, List.head?_map, List.getLast?_map, Option.map_eq_some_iff]
  constructor
  · rintro ⟨xs, hx, sl, hsl, te, hte, ve, hve, vi, hvi, ph, hph, ws, hw, ds, hd, qs, hq, th, hth, q0, hq0, m, hm, d1,
      hd1, w1, hw1, x1, hx1, _, ⟨f, hf, rfl⟩, _, ⟨f2, hf2, rfl⟩, _, ⟨f3, hf3, rfl⟩, _, ⟨l, hl, rfl⟩, _, ⟨l2, hl2, rfl⟩,
      _, ⟨l3, hl3, rfl⟩, _, ⟨l4, hl4, rfl⟩, rfl⟩
    rw [hf] at hf2 hf3
    rw [hl] at hl2 hl3 hl4
    obtain rfl := Option.some.inj hf2
    obtain rfl := Option.some.inj hf3
    obtain rfl := Option.some.inj hl2
    obtain rfl := Option.some.inj hl3
    obtain rfl := Option.some.inj hl4
    refine ⟨?_, xs, ws, ds, qs, hx, hw, hd, hq, m, q0, x1, f, l, hm, hq0, hd1, hw1, hx1, hf, hl, rfl, rfl, rfl, rfl,
      rfl, rfl, rfl, rfl⟩
    intro c hc
    simp only [runOutColumns, List.mem_cons, List.not_mem_nil, or_false] at hc
    rcases hc with rfl | rfl | rfl | rfl | rfl | rfl | rfl | rfl | rfl | rfl <;> rw [← columnIs_iff] <;>
      exact ⟨_, by assumption⟩
  · rintro ⟨hall, xs, ws, ds, qs, hx, hw, hd, hq, m, q0, x1, f, l, hm, hq0, hd1, hw1, hx1, hf, hl, e1, e2, e3, e4, e5,
      e6, e7, e8⟩
    obtain ⟨sl, hsl⟩ := (columnIs_iff log _).mpr (hall "slope" (by decide))
    obtain ⟨te, hte⟩ := (columnIs_iff log _).mpr (hall "core_temperature" (by decide))
    obtain ⟨ve, hve⟩ := (columnIs_iff log _).mpr (hall "mean_velocity" (by decide))
    obtain ⟨vi, hvi⟩ := (columnIs_iff log _).mpr (hall "viscosity" (by decide))
    obtain ⟨ph, hph⟩ := (columnIs_iff log _).mpr (hall "crystal_fraction" (by decide))
    obtain ⟨th, hth⟩ := (columnIs_iff log _).mpr (hall "tho_0" (by decide))
    refine ⟨xs, hx, sl, hsl, te, hte, ve, hve, vi, hvi, ph, hph, ws, hw, ds, hd, qs, hq, th, hth, q0, hq0, m, hm, _,
      hd1, _, hw1, x1, hx1, _, ⟨f, hf, rfl⟩, _, ⟨f, hf, rfl⟩, _, ⟨f, hf, rfl⟩, _, ⟨l, hl, rfl⟩, _, ⟨l, hl, rfl⟩,
      _, ⟨l, hl, rfl⟩, _, ⟨l, hl, rfl⟩, ?_⟩
    cases ro
    simp only at e1 e2 e3 e4 e5 e6 e7 e8
    rw [e1, e2, e3, e4, e5, e6, e7, e8]

/-- **C60**. When post-processing a result file works: it has at least two rows, none of them lacks a column that
    is read, and the profile has a point at or before (largest position + second position). -/
theorem C60_post_processing_works_iff (round : Nat → ℝ → ℝ) (log : Log (Cell ℝ)) (t : CsvTable (Cell ℝ))
    (ht : writeValues log = .ok (some t)) (lines : List (SlopeLine ℝ)) (xs : List ℝ) (hxs : ColumnIs log "position" xs) :
    (∃ ro, getRunOut round t lines = .ok ro) ↔
      2 ≤ log.length ∧ (∀ c ∈ runOutColumns, ∀ r ∈ log, c ∈ r.keys) ∧
      ∃ m ∈ xs, (∀ x ∈ xs, x ≤ m) ∧ ∃ x1, xs[1]? = some x1 ∧ ∃ l ∈ lines, l.dist ≤ m + x1 := by
  constructor
  · rintro ⟨ro, h⟩
    obtain ⟨h1, xs', _, _, _, hx, _, _, _, m, _, x1, f, _, hm, _, _, _, hx1, hf, _⟩ :=
      (C59_run_out_line round log t ht lines ro).mp h
    obtain rfl := columnIs_unique hxs hx
    refine ⟨?_, h1, m, hm.1, hm.2, x1, hx1, ?_⟩
    · rw [← columnIs_length hxs]
      obtain ⟨hlt, _⟩ := List.getElem?_eq_some_iff.mp hx1
      omega
    · have := List.mem_of_mem_head? hf
      rw [List.mem_filter] at this
      exact ⟨f, this.1, by simpa using this.2⟩
  · rintro ⟨h2, h1, m, hm, hle, x1, hx1, l0, hl0, hd0⟩
    obtain ⟨ws, hw⟩ := (columnIs_iff log _).mpr (h1 "channel_width" (by decide))
    obtain ⟨ds, hd⟩ := (columnIs_iff log _).mpr (h1 "channel_depth" (by decide))
    obtain ⟨qs, hq⟩ := (columnIs_iff log _).mpr (h1 "effusion_rate" (by decide))
    have hne : (lines.filter fun l => decide (l.dist ≤ m + x1)) ≠ [] :=
      List.ne_nil_of_mem (List.mem_filter.mpr ⟨hl0, by simpa using hd0⟩)
    have lw := columnIs_length hw
    have ld := columnIs_length hd
    have lq := columnIs_length hq
    refine ⟨⟨round 0 (qs[0]'(by omega)), ds[1]'(by omega), ws[1]'(by omega), round 2 (List.head _ hne).lat,
      round 2 (List.head _ hne).lon, round 1 (List.head _ hne).elev, round 2 (List.getLast _ hne).lat,
      round 2 (List.getLast _ hne).lon, round 1 (List.getLast _ hne).elev, round 0 (List.getLast _ hne).dist⟩, ?_⟩
    rw [C59_run_out_line round log t ht]
    exact ⟨h1, xs, ws, ds, qs, hxs, hw, hd, hq, m, qs[0]'(by omega), x1, _, _, ⟨hm, hle⟩,
      List.getElem?_eq_getElem (by omega), List.getElem?_eq_getElem (by omega), List.getElem?_eq_getElem (by omega), hx1,
      List.head?_eq_some_head hne, List.getLast?_eq_some_getLast hne, rfl, rfl, rfl, rfl, rfl, rfl, rfl, rfl⟩

/-! ### Applied to runs -/

theorem viscosity_not_flux {α : Type} (fs : List (Flux α)) : "viscosity" ∉ fluxColumns fs := by
  induction fs with
  | nil => simp [fluxColumns]
  | cons f rest ih =>
    intro hn
    simp only [fluxColumns, List.mem_append, List.mem_cons] at hn
    have h1 : "viscosity" ∉ f.columns := by cases f <;> simp [Flux.columns]
    have h2 : "viscosity" ≠ f.logName := by cases f <;> simp [Flux.logName]
    rcases hn with h | h | h | h
    · exact h1 h
    · exact h1 h
    · exact h2 h
    · exact ih h

theorem runOut_columns (g : Integrator ℝ) : ∀ c ∈ runOutColumns, c ∈ runColumns g := by
  intro c hc
  unfold runColumns
  rw [List.mem_cons, List.mem_append]
  simp only [runOutColumns, List.mem_cons, List.not_mem_nil, or_false] at hc
  rcases hc with rfl | rfl | rfl | rfl | rfl | rfl | rfl | rfl | rfl | rfl
  · exact Or.inl rfl
  all_goals right; right; decide

theorem run_positions_column (g : Integrator ℝ) (hdx : 0 < g.dx) (n : Nat) (w w' : World ℝ) (hw : w.log = [])
    (h : runLoop g n w = some (.ok (), w')) :
    ColumnIs w'.log "position" ((List.range w'.log.length).map fun i : ℕ => w.st.pos + (i : ℝ) * g.dx) := by
  refine ⟨(List.range w'.log.length).map fun i : ℕ => .num (w.st.pos + (i : ℝ) * g.dx), ?_, ?_⟩
  · rw [C63_positions g hdx n w w' hw h, List.map_map]; rfl
  · rw [List.map_map]; rfl

/-- **C59**. For the rows of a run with positive step the largest position is that of the last row. -/
theorem C59_largest_position_is_last (g : Integrator ℝ) (hdx : 0 < g.dx) (n : Nat) (w w' : World ℝ) (hw : w.log = [])
    (h : runLoop g n w = some (.ok (), w')) (xs : List ℝ) (hx : ColumnIs w'.log "position" xs) (hne : xs ≠ []) :
    maxList xs = .ok (xs.getLast hne) ∧ xs.getLast hne = w.st.pos + ((w'.log.length : ℝ) - 1) * g.dx := by
  obtain rfl := columnIs_unique hx (run_positions_column g hdx n w w' hw h)
  have hlen : 0 < w'.log.length := by
    rcases Nat.eq_zero_or_pos w'.log.length with h0 | h0
    · rw [h0] at hne; exact absurd rfl hne
    · exact h0
  have hl : ((List.range w'.log.length).map fun i : ℕ => w.st.pos + (i : ℝ) * g.dx).getLast hne =
      w.st.pos + ((w'.log.length : ℝ) - 1) * g.dx := by
    rw [List.getLast_map, List.getLast_range, Nat.cast_sub hlen, Nat.cast_one]
  refine ⟨?_, hl⟩
  rw [maxList_iff]
  refine ⟨List.getLast_mem hne, fun x hx => ?_⟩
  rw [hl]
  obtain ⟨i, hi, rfl⟩ := List.mem_map.mp hx
  rw [List.mem_range] at hi
  have : (i : ℝ) ≤ (w'.log.length : ℝ) - 1 := by
    have : ((i + 1 : ℕ) : ℝ) ≤ (w'.log.length : ℝ) := by exact_mod_cast hi
    push_cast at this
    linarith
  have := mul_le_mul_of_nonneg_right this hdx.le
  linarith

/-- **C59**. The run-out of a run whose result has n rows: the (rounded) distance of the last profile point that is
    not beyond 2*x0 + n*dx. -/
theorem C59_run_out_of_a_run (round : Nat → ℝ → ℝ) (g : Integrator ℝ) (hdx : 0 < g.dx) (n : Nat) (w w' : World ℝ)
    (hw : w.log = []) (h : runLoop g n w = some (.ok (), w')) (t : CsvTable (Cell ℝ))
    (ht : writeValues w'.log = .ok (some t)) (lines : List (SlopeLine ℝ)) (ro : RunOut ℝ)
    (hro : getRunOut round t lines = .ok ro) :
    ∃ last, (lines.filter fun l => decide (l.dist ≤ 2 * w.st.pos + w'.log.length * g.dx)).getLast? = some last ∧
      ro.runOut = round 0 last.dist := by
  obtain ⟨_, xs, _, _, _, hx, _, _, _, m, _, x1, _, last, hm, _, _, _, hx1, _, hl, _, _, _, _, _, _, _, e8⟩ :=
    (C59_run_out_line round _ t ht lines ro).mp hro
  have hne : xs ≠ [] := List.ne_nil_of_mem hm.1
  obtain ⟨h1, h2⟩ := C59_largest_position_is_last g hdx n w w' hw h xs hx hne
  have hmm : m = xs.getLast hne := by
    have := (maxList_iff xs m).mpr hm
    rw [h1] at this
    injection this with this
    exact this.symm
  have hx1' : x1 = w.st.pos + g.dx := by
    obtain rfl := columnIs_unique hx (run_positions_column g hdx n w w' hw h)
    rw [List.getElem?_map, Option.map_eq_some_iff] at hx1
    obtain ⟨i, hi, rfl⟩ := hx1
    rw [List.getElem?_eq_some_iff] at hi
    obtain ⟨hi1, hi2⟩ := hi
    rw [List.getElem_range] at hi2
    rw [← hi2]; simp
  refine ⟨last, ?_, e8⟩
  have : m + x1 = 2 * w.st.pos + w'.log.length * g.dx := by rw [hmm, h2, hx1']; ring
  rw [← this]; exact hl

/-- **C60**. A completed run can be post-processed exactly when it logged at least two rows, its last row is
    complete, and the profile starts at or before 2*x0 + n*dx. -/
theorem C60_run_can_be_post_processed (round : Nat → ℝ → ℝ) (g : Integrator ℝ) (hdx : 0 < g.dx) (n : Nat)
    (w w' : World ℝ) (hw : w.log = []) (h : runLoop g n w = some (.ok (), w')) (t : CsvTable (Cell ℝ))
    (ht : writeValues w'.log = .ok (some t)) (lines : List (SlopeLine ℝ)) :
    (∃ ro, getRunOut round t lines = .ok ro) ↔
      2 ≤ w'.log.length ∧ (∀ r ∈ w'.log.getLast?, "viscosity" ∈ r.keys) ∧
      ∃ l ∈ lines, l.dist ≤ 2 * w.st.pos + w'.log.length * g.dx := by
  have hx := run_positions_column g hdx n w w' hw h
  rw [C60_post_processing_works_iff round w'.log t ht lines _ hx]
  obtain ⟨k, ws, row, _, _, _, h1, _, h3⟩ := C63_rows g hdx n w w' hw h
  have hcols : (∀ c ∈ runOutColumns, ∀ r ∈ w'.log, c ∈ r.keys) ↔ ∀ r ∈ w'.log.getLast?, "viscosity" ∈ r.keys := by
    constructor
    · intro hall r hr
      exact hall "viscosity" (by decide) r (List.mem_of_mem_getLast? hr)
    · intro hlast c hc r hr
      have hfull : ∀ r ∈ (List.range k).map row, c ∈ r.keys := by
        intro r hr
        obtain ⟨i, hi, rfl⟩ := List.mem_map.mp hr
        exact ((h1 i (List.mem_range.mp hi)).2 c).mpr (runOut_columns g c hc)
      rcases h3 with h3 | ⟨r', h3, _, h5⟩
      · rw [h3] at hr; exact hfull r hr
      · exfalso
        have := hlast r' (by rw [h3]; simp)
        rw [h5] at this
        unfold partColumns at this
        rw [List.mem_cons, List.mem_append] at this
        rcases this with e | e | e
        · revert e; decide
        · exact absurd e (viscosity_not_flux g.models.fluxes)
        · revert e; decide
  rw [hcols]
  refine and_congr_right fun hlen => and_congr_right fun _ => ?_
  have hne : ((List.range w'.log.length).map fun i : ℕ => w.st.pos + (i : ℝ) * g.dx) ≠ [] := by
    rw [ne_eq, List.map_eq_nil_iff, List.range_eq_nil]
    omega
  obtain ⟨e1, e2⟩ := C59_largest_position_is_last g hdx n w w' hw h _ hx hne
  have hm := (maxList_iff _ _).mp e1
  have hx1 : ((List.range w'.log.length).map fun i : ℕ => w.st.pos + (i : ℝ) * g.dx)[1]? = some (w.st.pos + g.dx) := by
    rw [List.getElem?_map, List.getElem?_eq_getElem (by rw [List.length_range]; omega), List.getElem_range]
    simp
  have hsum : w.st.pos + ((w'.log.length : ℝ) - 1) * g.dx + (w.st.pos + g.dx) =
      2 * w.st.pos + w'.log.length * g.dx := by ring
  constructor
  · rintro ⟨m, hm1, hm2, x1, hx1', l, hl, hd⟩
    rw [hx1] at hx1'
    obtain rfl := Option.some.inj hx1'
    refine ⟨l, hl, hd.trans ?_⟩
    rw [← hsum, ← e2]
    have := hm.2 m hm1
    linarith
  · rintro ⟨l, hl, hd⟩
    refine ⟨_, hm.1, hm.2, _, hx1, l, hl, ?_⟩
    rw [e2, hsum]
    exact hd

end PyFlowGo
