import Verif.Props.CutResult
import Verif.Model.RunOutsDisk
import Verif.Model.FieldPlot
import Verif.Props.RunRows
/-
  C101: what the post-processing tools make of a result file that was cut off.
-/
set_option linter.unusedSectionVars false
namespace PyFlowGo
open Spec

section
variable {α : Type} [Add α] [Sub α] [Mul α] [Neg α] [OfScientific α] [PyNum α] {ν : Type}

/-- A column of a complete row. -/
theorem field_whole (render : ν → List Char) (header : List String) (r : Row ν) (name : String) (hn : name ∈ header) :
    dictField (wholeRow render header r) name = .ok (some (valueText render r name)) := by
  unfold wholeRow
  rw [dictField_row header (fun n => some (valueText render r n)) name, if_pos hn]

theorem field_whole_none (render : ν → List Char) (header : List String) (r : Row ν) (name : String) (hn : name ∉ header) :
    dictField (wholeRow render header r) name = .error .keyError := by
  unfold wholeRow
  rw [dictField_row header (fun n => some (valueText render r n)) name, if_neg hn]

/-- Columns before the cut are as they were. -/
theorem field_before (render : ν → List Char) (header : List String) (hnd : header.Nodup) (r : Row ν) (j : ℕ) (f : List Char)
    (name : String) (h : name ∈ header → header.idxOf name < j) :
    dictField (cutRow render header r j f) name = dictField (wholeRow render header r) name := by
  rw [field_cut render header hnd]
  by_cases hn : name ∈ header
  · rw [if_pos hn, if_pos (h hn), field_whole render header r name hn]
  · rw [if_neg hn, field_whole_none render header r name hn]

theorem float_before (pf : List Char → Option α) (render : ν → List Char) (header : List String) (hnd : header.Nodup) (r : Row ν)
    (j : ℕ) (f : List Char) (name : String) (h : name ∈ header → header.idxOf name < j) :
    dictFloat pf (cutRow render header r j f) name = dictFloat pf (wholeRow render header r) name := by
  unfold dictFloat
  rw [field_before render header hnd r j f name h]

theorem optional_before (pf : List Char → Option α) (render : ν → List Char) (header : List String) (hnd : header.Nodup) (r : Row ν)
    (j : ℕ) (f : List Char) (name : String) (h : name ∈ header → header.idxOf name < j) :
    dictOptional pf (cutRow render header r j f) name = dictOptional pf (wholeRow render header r) name := by
  unfold dictOptional
  rw [field_before render header hnd r j f name h, float_before pf render header hnd r j f name h]

/-- A column that could be read was reached. -/
theorem float_reached (pf : List Char → Option α) (render : ν → List Char) (header : List String) (hnd : header.Nodup) (r : Row ν)
    (j : ℕ) (f : List Char) (name : String) (x : α) (h : dictFloat pf (cutRow render header r j f) name = .ok x) :
    name ∈ header ∧ header.idxOf name ≤ j ∧ (header.idxOf name = j → pf f = some x) := by
  unfold dictFloat at h
  rw [field_cut render header hnd] at h
  by_cases hn : name ∈ header
  · rw [if_pos hn, ok_bind] at h
    refine ⟨hn, ?_, ?_⟩
    · by_contra hc
      rw [if_neg (by omega), if_neg (by omega)] at h
      cases h
    · intro he
      rw [if_neg (by omega), if_pos he] at h
      dsimp only at h
      cases hp : pf f with
      | none => rw [hp] at h; cases h
      | some y => rw [hp] at h; cases h; rfl
  · rw [if_neg hn, error_bind] at h; cases h

/-- The value that was cut is a number when what is left of it is. -/
theorem float_whole_of_cut (pf : List Char → Option α) (render : ν → List Char) (hpf : ∀ v, ∃ x, pf (render v) = some x)
    (hempty : pf [] = none) (header : List String) (r : Row ν) (name : String) (hn : name ∈ header) (f g : List Char)
    (hv : valueText render r name = f ++ g) (x : α) (hx : pf f = some x) :
    ∃ y, dictFloat pf (wholeRow render header r) name = .ok y := by
  unfold dictFloat
  rw [field_whole render header r name hn, ok_bind]
  dsimp only
  have : ∃ v, r.get? name = some v := by
    cases hg : r.get? name with
    | some v => exact ⟨v, rfl⟩
    | none =>
      unfold valueText at hv
      rw [hg] at hv
      have : f = [] := (List.append_eq_nil_iff.mp hv.symm).1
      rw [this, hempty] at hx; cases hx
  obtain ⟨v, hg⟩ := this
  obtain ⟨y, hy⟩ := hpf v
  unfold valueText
  rw [hg]
  rw [show (some v).elim [] render = render v from rfl, hy]
  exact ⟨y, rfl⟩

/-- Column names that end with the two stress columns. -/
structure StressLast (header : List String) : Prop where
  nodup : header.Nodup
  last : ∃ before, header = before ++ ["tho_0", "tho_b"]

theorem StressLast.idx {header : List String} (h : StressLast header) :
    "tho_b" ∈ header ∧ "tho_0" ∈ header ∧ header.idxOf "tho_b" = header.idxOf "tho_0" + 1 ∧
      (∀ name ∈ header, name ≠ "tho_b" → name ≠ "tho_0" → header.idxOf name < header.idxOf "tho_0") := by
  obtain ⟨hnd, before, rfl⟩ := h
  have h1 : "tho_b" ∉ before := by
    intro hm
    have := (List.nodup_append.mp hnd).2.2 _ hm "tho_b" (by simp)
    exact this rfl
  have h0 : "tho_0" ∉ before := by
    intro hm
    have := (List.nodup_append.mp hnd).2.2 _ hm "tho_0" (by simp)
    exact this rfl
  have i0 : (before ++ ["tho_0", "tho_b"]).idxOf "tho_0" = before.length := by
    rw [List.idxOf_append, if_neg h0]; simp
  have i1 : (before ++ ["tho_0", "tho_b"]).idxOf "tho_b" = before.length + 1 := by
    rw [List.idxOf_append, if_neg h1]
    have : List.idxOf "tho_b" ["tho_0", "tho_b"] = 1 := by decide
    rw [this]; omega
  refine ⟨by simp, by simp, by rw [i0, i1], ?_⟩
  intro name hn hb h0'
  rw [i0, List.idxOf_append]
  have hin : name ∈ before := by
    rcases List.mem_append.mp hn with h | h
    · exact h
    · simp [hb, h0'] at h
  rw [if_pos hin]
  exact List.idxOf_lt_length_of_mem hin

variable {pf : List Char → Option α} {render : ν → List Char} {header : List String} {r : Row ν} {j : ℕ} {f g : List Char}

/-- What a reader of the column `tho_b` knows. -/
theorem all_before (hh : StressLast header) (s : α) (hs : dictFloat pf (cutRow render header r j f) "tho_b" = .ok s) :
    ∀ name, name ≠ "tho_b" → (name ∈ header → header.idxOf name < j) := by
  obtain ⟨_, hj, _⟩ := float_reached pf render header hh.nodup r j f "tho_b" s hs
  obtain ⟨_, _, h2, h3⟩ := hh.idx
  intro name hne hn
  by_cases h0 : name = "tho_0"
  · rw [h0]; omega
  · have := h3 name hn hne h0; omega

theorem shear_whole (hpf : ∀ v, ∃ x, pf (render v) = some x) (hempty : pf [] = none) (hh : StressLast header)
    (hv : ∀ name, header[j]? = some name → valueText render r name = f ++ g)
    (s : α) (hs : dictFloat pf (cutRow render header r j f) "tho_b" = .ok s) :
    ∃ y, dictFloat pf (wholeRow render header r) "tho_b" = .ok y := by
  obtain ⟨hin, hj, hx⟩ := float_reached pf render header hh.nodup r j f "tho_b" s hs
  rcases Nat.lt_or_ge (header.idxOf "tho_b") j with h | h
  · exact ⟨s, by rw [← float_before pf render header hh.nodup r j f "tho_b" (fun _ => h)]; exact hs⟩
  · have he : header.idxOf "tho_b" = j := by omega
    refine float_whole_of_cut pf render hpf hempty header r "tho_b" hin f g (hv _ ?_) s (hx he)
    have hlt := List.idxOf_lt_length_of_mem hin
    rw [← he, List.getElem?_eq_getElem hlt, List.getElem_idxOf hlt]

/-- A cut line that `plot_all_results` accepts shows what the complete line shows. -/
theorem plot_cut (hpf : ∀ v, ∃ x, pf (render v) = some x) (hempty : pf [] = none) (hh : StressLast header)
    (hv : ∀ name, header[j]? = some name → valueText render r name = f ++ g) (p : PlotRow α)
    (h : readPlotText pf (cutRow render header r j f) = .ok p) : readPlotText pf (wholeRow render header r) = .ok p := by
  have hs : ∃ s, dictFloat pf (cutRow render header r j f) "tho_b" = .ok s := by
    unfold readPlotText at h
    obtain ⟨_, _, h⟩ := bind_ok_iff.mp h
    obtain ⟨_, _, h⟩ := bind_ok_iff.mp h
    obtain ⟨_, _, h⟩ := bind_ok_iff.mp h
    obtain ⟨_, _, h⟩ := bind_ok_iff.mp h
    obtain ⟨_, _, h⟩ := bind_ok_iff.mp h
    obtain ⟨_, _, h⟩ := bind_ok_iff.mp h
    obtain ⟨s, hs, _⟩ := bind_ok_iff.mp h
    exact ⟨s, hs⟩
  obtain ⟨s, hs⟩ := hs
  obtain ⟨y, hy⟩ := shear_whole hpf hempty hh hv s hs
  have hb := all_before hh s hs
  have e : ∀ name, name ≠ "tho_b" → dictFloat pf (cutRow render header r j f) name = dictFloat pf (wholeRow render header r) name :=
    fun name hne => float_before pf render header hh.nodup r j f name (hb name hne)
  have eo : ∀ name, name ≠ "tho_b" → dictOptional pf (cutRow render header r j f) name = dictOptional pf (wholeRow render header r) name :=
    fun name hne => optional_before pf render header hh.nodup r j f name (hb name hne)
  unfold readPlotText at h ⊢
  rw [hy]
  rw [hs] at h
  simp only [e "position" (by decide), e "slope" (by decide), e "core_temperature" (by decide), e "mean_velocity" (by decide),
    e "viscosity" (by decide), e "tho_0" (by decide), e "crystal_fraction" (by decide), e "vesicle_fraction" (by decide),
    e "channel_width" (by decide), e "channel_depth" (by decide), e "effusion_rate" (by decide), e "crust_temperature" (by decide),
    e "effective_cover_fraction" (by decide), e "dphi_dtemp" (by decide), e "dphi_dx" (by decide),
    e "characteristic_surface_temperature" (by decide), eo "effective_radiation_temperature" (by decide),
    eo "flowgofluxradiationheat" (by decide), eo "flowgofluxconductionheat" (by decide),
    eo "flowgofluxforcedconvectionheat" (by decide), eo "flowgofluxsnyderheat" (by decide), ok_bind] at h ⊢
  exact h

theorem field_plot_cut (hpf : ∀ v, ∃ x, pf (render v) = some x) (hempty : pf [] = none) (hh : StressLast header)
    (hv : ∀ name, header[j]? = some name → valueText render r name = f ++ g) (p : FieldRow α)
    (h : readFieldRow pf (cutRow render header r j f) = .ok p) : readFieldRow pf (wholeRow render header r) = .ok p := by
  have hs : ∃ s, dictFloat pf (cutRow render header r j f) "tho_b" = .ok s := by
    unfold readFieldRow at h
    obtain ⟨_, _, h⟩ := bind_ok_iff.mp h
    obtain ⟨_, _, h⟩ := bind_ok_iff.mp h
    obtain ⟨_, _, h⟩ := bind_ok_iff.mp h
    obtain ⟨_, _, h⟩ := bind_ok_iff.mp h
    obtain ⟨_, _, h⟩ := bind_ok_iff.mp h
    obtain ⟨_, _, h⟩ := bind_ok_iff.mp h
    obtain ⟨s, hs, _⟩ := bind_ok_iff.mp h
    exact ⟨s, hs⟩
  obtain ⟨s, hs⟩ := hs
  obtain ⟨y, hy⟩ := shear_whole hpf hempty hh hv s hs
  have hb := all_before hh s hs
  have e : ∀ name, name ≠ "tho_b" → dictFloat pf (cutRow render header r j f) name = dictFloat pf (wholeRow render header r) name :=
    fun name hne => float_before pf render header hh.nodup r j f name (hb name hne)
  unfold readFieldRow at h ⊢
  rw [hy]
  rw [hs] at h
  simp only [e "position" (by decide), e "slope" (by decide), e "core_temperature" (by decide), e "mean_velocity" (by decide),
    e "viscosity" (by decide), e "tho_0" (by decide), e "crystal_fraction" (by decide),
    e "channel_width" (by decide), e "channel_depth" (by decide), e "effusion_rate" (by decide), e "crust_temperature" (by decide),
    e "effective_cover_fraction" (by decide), e "dphi_dtemp" (by decide), e "dphi_dx" (by decide),
    e "characteristic_surface_temperature" (by decide), e "effective_radiation_temperature" (by decide),
    e "flowgofluxradiationheat" (by decide), e "flowgofluxconductionheat" (by decide),
    e "flowgofluxforcedconvectionheat" (by decide), ok_bind] at h ⊢
  exact h

theorem runOut_cut (hpf : ∀ v, ∃ x, pf (render v) = some x) (hempty : pf [] = none) (hh : StressLast header)
    (hv : ∀ name, header[j]? = some name → valueText render r name = f ++ g) (p : RunOutRow α)
    (h : readRunOutRow pf (cutRow render header r j f) = .ok p) : readRunOutRow pf (wholeRow render header r) = .ok p := by
  have hs : ∃ s, dictFloat pf (cutRow render header r j f) "tho_0" = .ok s := by
    unfold readRunOutRow at h
    iterate 9 obtain ⟨_, _, h⟩ := bind_ok_iff.mp h
    obtain ⟨s, hs, _⟩ := bind_ok_iff.mp h
    exact ⟨s, hs⟩
  obtain ⟨s, hs⟩ := hs
  obtain ⟨hin, hj, hx⟩ := float_reached pf render header hh.nodup r j f "tho_0" s hs
  obtain ⟨_, _, h2, h3⟩ := hh.idx
  have hy : ∃ y, dictFloat pf (wholeRow render header r) "tho_0" = .ok y := by
    rcases Nat.lt_or_ge (header.idxOf "tho_0") j with h | h
    · exact ⟨s, by rw [← float_before pf render header hh.nodup r j f "tho_0" (fun _ => h)]; exact hs⟩
    · have he : header.idxOf "tho_0" = j := by omega
      refine float_whole_of_cut pf render hpf hempty header r "tho_0" hin f g (hv _ ?_) s (hx he)
      have hlt := List.idxOf_lt_length_of_mem hin
      rw [← he, List.getElem?_eq_getElem hlt, List.getElem_idxOf hlt]
  obtain ⟨y, hy⟩ := hy
  have e : ∀ name, name ≠ "tho_b" → name ≠ "tho_0" → dictFloat pf (cutRow render header r j f) name = dictFloat pf (wholeRow render header r) name :=
    fun name hne h0 => float_before pf render header hh.nodup r j f name (fun hn => by have := h3 name hn hne h0; omega)
  unfold readRunOutRow at h ⊢
  rw [hy]
  rw [hs] at h
  simp only [e "position" (by decide) (by decide), e "slope" (by decide) (by decide), e "core_temperature" (by decide) (by decide),
    e "mean_velocity" (by decide) (by decide), e "viscosity" (by decide) (by decide), e "crystal_fraction" (by decide) (by decide),
    e "channel_width" (by decide) (by decide), e "channel_depth" (by decide) (by decide), e "effusion_rate" (by decide) (by decide),
    ok_bind] at h ⊢
  exact h
end

section
variable {α : Type} [Add α] [Sub α] [Mul α] [Neg α] [OfScientific α] [PyNum α] {ν : Type}

/-- The dictionaries of the file of the first `m` rows. -/
theorem first_rows {log : Log ν} {t : CsvTable ν} (h : writeValues log = .ok (some t)) (render : ν → List Char)
    (hcols : 2 ≤ t.header.length) (hnames : ∀ n ∈ t.header, PlainText ',' n.toList) (hrender : ∀ x, PlainText ',' (render x))
    (windows : Bool) (m : ℕ) :
    dictRead ',' (stored windows (CsvTable.text render { t with rows := t.rows.take m })) =
      .ok ((log.take m).map (wholeRow render t.header)) := by
  have htext : CsvTable.text render { t with rows := t.rows.take m } =
      csvWrite ',' (t.header.map String.toList :: (log.take m).map fun r => t.header.map (valueText render r)) := by
    unfold CsvTable.text
    dsimp only
    rw [List.map_take, table_texts h render, ← List.map_take]
  have hvt : ∀ (r : Row ν) (name : String), '\r' ∉ valueText render r name := by
    intro r name
    unfold valueText
    cases r.get? name with
    | none => simp
    | some x => exact fun hc => (hrender x _ hc).2.2.2 rfl
  have hne : t.header ≠ [] := by intro e; rw [e] at hcols; simp at hcols
  rw [htext, dictRead_write comma_delim]
  · rw [List.map_map]
    congr 1
    exact List.map_congr_left fun r _ => dictZip_whole t.header render r
  · simpa using hne
  · intro r hr
    obtain ⟨q, _, rfl⟩ := List.mem_map.mp hr
    simpa using hne
  · intro f hf
    obtain ⟨n, hn, rfl⟩ := List.mem_map.mp hf
    exact fun hc => (hnames n hn _ hc).2.2.2 rfl
  · intro r hr f hf
    obtain ⟨q, _, rfl⟩ := List.mem_map.mp hr
    obtain ⟨n, _, rfl⟩ := List.mem_map.mp hf
    exact hvt q n

/-- What is left of a result file, for a tool that treats every line by a reader that accepts a cut line only if it gives
    what the complete line gives. -/
theorem cut_tool {log : Log ν} {t : CsvTable ν} (h : writeValues log = .ok (some t)) (render : ν → List Char)
    (hcols : 2 ≤ t.header.length) (hnames : ∀ n ∈ t.header, PlainText ',' n.toList) (hrender : ∀ x, PlainText ',' (render x))
    (windows : Bool) (n : ℕ) :
    ∃ rows m, m ≤ log.length ∧ dictRead ',' ((stored windows (t.text render)).take n) = .ok rows ∧
      (rows = (log.take m).map (wholeRow render t.header) ∨
        ∃ k r j f g, m = k + 1 ∧ log.take m = log.take k ++ [r] ∧ (∀ name, t.header[j]? = some name → valueText render r name = f ++ g) ∧
          rows = (log.take k).map (wholeRow render t.header) ++ [cutRow render t.header r j f]) := by
  obtain ⟨rows, h1, ⟨k, hk, h2⟩, _⟩ := C100_cut_result log t h render hcols hnames hrender windows n
  rcases h2 with h2 | ⟨r, j, name, f, g, h3, h4, h5, h6⟩
  · exact ⟨rows, k, hk, h1, Or.inl h2⟩
  · have hlt : k < log.length := (List.getElem?_eq_some_iff.mp h3).1
    refine ⟨rows, k + 1, hlt, h1, Or.inr ⟨k, r, j, f, g, rfl, ?_, ?_, h6⟩⟩
    · rw [List.take_add_one, h3]; rfl
    · intro name' hn
      rw [h4, Option.some.injEq] at hn
      rw [← hn]; exact h5

theorem mapM_append_ok {β γ : Type} (ρ : β → Except Err γ) (l l' : List β) (ys : List γ) (h : (l ++ l').mapM ρ = .ok ys) :
    ∃ a b, l.mapM ρ = .ok a ∧ l'.mapM ρ = .ok b ∧ ys = a ++ b := by
  rw [List.mapM_append] at h
  obtain ⟨a, ha, h⟩ := bind_ok_iff.mp h
  obtain ⟨b, hb, h⟩ := bind_ok_iff.mp h
  rw [pure_ok_iff] at h
  exact ⟨a, b, ha, hb, h.symm⟩

/-- The lines of a cut file, read by such a reader. -/
theorem mapM_cut {β : Type} (ρ : List (List Char × Option (List Char)) → Except Err β) (whole : List (List (List Char × Option (List Char))))
    (cut full : List (List Char × Option (List Char))) (hρ : ∀ p, ρ cut = .ok p → ρ full = .ok p) (ys : List β)
    (h : (whole ++ [cut]).mapM ρ = .ok ys) : (whole ++ [full]).mapM ρ = .ok ys := by
  obtain ⟨a, b, ha, hb, rfl⟩ := mapM_append_ok ρ _ _ _ h
  rw [List.mapM_append, ha, ok_bind]
  rw [List.mapM_cons] at hb
  obtain ⟨p, hp, hb⟩ := bind_ok_iff.mp hb
  rw [List.mapM_cons, hρ p hp]
  simp only [List.mapM_nil, ok_bind, pure_eq_ok] at hb ⊢
  cases hb
  rfl

/-- **C101**. `plot_all_results`, the run-out table and the field-data plots on a result file of which only the first `n`
    characters are on the disk: whatever they draw or tabulate is what they would draw or tabulate for the file of the first
    `m` rows, for some `m`; in all other cases they raise an exception. No wrong number is ever shown. This holds for every
    table whose last two columns are `tho_0` and `tho_b`, which all results of runs are. -/
theorem C101_cut_results_are_safe (log : Log ν) (t : CsvTable ν) (h : writeValues log = .ok (some t)) (render : ν → List Char)
    (pf : List Char → Option α) (hpf : ∀ v, ∃ x, pf (render v) = some x) (hempty : pf [] = none)
    (hlast : t.header.Nodup ∧ ∃ before, t.header = before ++ ["tho_0", "tho_b"])
    (hnames : ∀ n ∈ t.header, PlainText ',' n.toList) (hrender : ∀ x, PlainText ',' (render x)) (windows : Bool) (n : ℕ) :
    ∃ m, m ≤ log.length ∧
      (∀ q res, plotFileText pf q ((stored windows (t.text render)).take n) = .ok res →
        plotFileText pf q (stored windows (CsvTable.text render { t with rows := t.rows.take m })) = .ok res) ∧
      (∀ round slope res, runOutOfText round pf ((stored windows (t.text render)).take n) slope = .ok res →
        runOutOfText round pf (stored windows (CsvTable.text render { t with rows := t.rows.take m })) slope = .ok res) ∧
      (∀ res, fieldResult pf ((stored windows (t.text render)).take n) = .ok res →
        fieldResult pf (stored windows (CsvTable.text render { t with rows := t.rows.take m })) = .ok res) := by
  have hh : StressLast t.header := ⟨hlast.1, hlast.2⟩
  have hcols : 2 ≤ t.header.length := by
    obtain ⟨_, before, e⟩ := hlast
    rw [e]; simp
  obtain ⟨rows, m, hm, hread, hcase⟩ := cut_tool h render hcols hnames hrender windows n
  have hfirst := first_rows h render hcols hnames hrender windows m
  refine ⟨m, hm, ?_⟩
  rcases hcase with rfl | ⟨k, r, j, f, g, rfl, htake, hv, rfl⟩
  · refine ⟨fun q res hq => ?_, fun round slope res hq => ?_, fun res hq => ?_⟩
    · unfold plotFileText at hq ⊢; rw [hread] at hq; rw [hfirst]; exact hq
    · unfold runOutOfText at hq ⊢; rw [hread] at hq; rw [hfirst]; exact hq
    · unfold fieldResult at hq ⊢; rw [hread] at hq; rw [hfirst]; exact hq
  · rw [htake, List.map_append, List.map_singleton] at hfirst
    refine ⟨fun q res hq => ?_, fun round slope res hq => ?_, fun res hq => ?_⟩
    · unfold plotFileText at hq ⊢
      rw [hread, ok_bind] at hq
      rw [hfirst, ok_bind]
      cases hl : log.take k with
      | nil =>
        rw [hl] at hq
        simp only [List.map_nil, List.nil_append] at hq
        obtain ⟨_, _, hq⟩ := bind_ok_iff.mp hq
        cases hq
      | cons r0 l =>
        rw [hl] at hq
        simp only [List.map_cons, List.cons_append] at hq ⊢
        obtain ⟨x, hx, hq⟩ := bind_ok_iff.mp hq
        obtain ⟨ps, hps, hq⟩ := bind_ok_iff.mp hq
        rw [hx, ok_bind, mapM_cut _ _ _ _ (fun p => plot_cut hpf hempty hh hv p) ps hps, ok_bind]
        exact hq
    · unfold runOutOfText at hq ⊢
      rw [hread, ok_bind] at hq
      rw [hfirst, ok_bind]
      obtain ⟨ps, hps, hq⟩ := bind_ok_iff.mp hq
      rw [mapM_cut _ _ _ _ (fun p => runOut_cut hpf hempty hh hv p) ps hps, ok_bind]
      exact hq
    · unfold fieldResult at hq ⊢
      rw [hread, ok_bind] at hq
      rw [hfirst, ok_bind]
      obtain ⟨ps, hps, hq⟩ := bind_ok_iff.mp hq
      rw [mapM_cut _ _ _ _ (fun p => field_plot_cut hpf hempty hh hv p) ps hps, ok_bind]
      exact hq
end

end PyFlowGo
