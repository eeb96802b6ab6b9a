import Verif.Props.FieldPlotMore
/-
  C93 on an example: a run, then its result among field data.
-/
set_option linter.unusedSectionVars false
namespace PyFlowGo
open Spec

/-- A table of field data with one measurement. -/
noncomputable def milliPoint (x y : String) (a b : ℝ) : CsvTable (Cell ℝ) := { header := [x, y], rows := [[some (.num a), some (.num b)]] }

theorem milli_point (windows : Bool) (x y : String) (a b : ℝ) (hxy : x ≠ y) (hx : '\r' ∉ x.toList) (hy : '\r' ∉ y.toList) (path : String)
    (disk : List (String × List Char))
    (h : lookup disk path = some (stored windows ((milliPoint x y a b).text fun c => milliText c.value))) :
    TableShows (milliFormat windows) disk path x y [(milliRound a, milliRound b)] := by
  have hlog : writeValues ([[(x, .num a), (y, .num b)]] : Log (Cell ℝ)) = .ok (some (milliPoint x y a b)) := by
    unfold writeValues milliPoint
    simp [csvRow, Row.keys, Row.get?, hxy]
  refine ⟨_, _, h, C74_result_file _ _ hlog (fun c => milliText c.value) (by simp [milliPoint]) ?_ (fun c => milli_clean _ _ (by simp)) windows, ?_⟩
  · intro n hn
    simp only [milliPoint, List.mem_cons, List.not_mem_nil, or_false] at hn
    rcases hn with rfl | rfl <;> assumption
  · have hfloat : ∀ n ∈ [x, y], ∀ v, Row.get? ([(x, .num a), (y, .num b)] : Row (Cell ℝ)) n = some (Cell.num v) →
        dictFloat milliFloat ((milliPoint x y a b).header.map fun n => (n.toList,
          some ((Row.get? ([(x, .num a), (y, .num b)] : Row (Cell ℝ)) n).elim [] fun c => milliText c.value))) n = .ok (milliRound v) := by
      intro n hn v hv
      unfold dictFloat
      rw [dictField_row, if_pos (show n ∈ (milliPoint x y a b).header from hn), ok_bind, hv]
      dsimp only [Option.elim_some]
      rw [show milliFloat (milliText (Cell.num v).value) = some (milliRound v) from milli_reads _]
    refine .cons ⟨hfloat x (by simp) a ?_, hfloat y (by simp) b ?_⟩ .nil
    · simp [Row.get?]
    · simp [Row.get?, hxy]

/-- The files besides the configuration. -/
noncomputable def fieldDisk (windows : Bool) : List (String × List Char) :=
  [("still.json", stored windows (jsonDump milliText (stillConfig 3 3 (.int 1)))), ("slope.txt", milliProfile),
   ("temp.csv", stored windows ((milliPoint "Distance (m)" "Temperature C (glass method)" 1 1150).text fun c => milliText c.value)),
   ("xtals.csv", stored windows ((milliPoint "Distance (m)" "Total xtals" 2 0.25).text fun c => milliText c.value)),
   ("width.csv", stored windows ((milliPoint "Distance (m)" "Measured Width (m)" 2 4).text fun c => milliText c.value))]

/-- The points drawn for a column: its printed numbers. -/
theorem curve_of_column_all {rd : ℝ → ℝ} {rows : List (Row (Cell ℝ))} {name : String} {xs ys : List ℝ} {f : ℝ → ℝ}
    (hcol : ColumnIs rows name xs) (hc : CurveOf (rows.map (roundRow rd)) name f ys) : ys = xs.map fun x => f (rd x) := by
  have h := curve_of_column (r0 := [(name, .num 0)]) (x0 := 0) (xs := xs) ?_ hc
  · exact h
  · obtain ⟨cells, h1, h2⟩ := hcol
    refine ⟨.num 0 :: cells, ?_, by rw [List.map_cons, h2]; rfl⟩
    unfold Log.getValues at h1 ⊢
    rw [List.map_cons, List.map_cons, h1]
    simp [Row.get?]

/-- A result of the example with two or three lines can be drawn. -/
theorem field_drawn (windows : Bool) (n : ℕ) (hn : 2 ≤ n) (log : Log (Cell ℝ)) (t : CsvTable (Cell ℝ))
    (hlog : log.length = n ∧ (∀ r ∈ log, ∀ c, c ∈ r.keys ↔ c ∈ runColumns (flowG stillFluxes)) ∧
        ColumnIs log "position" ((List.range n).map fun i : ℕ => (i : ℝ))) (ht : writeValues log = .ok (some t)) :
    ∃ c, fieldResult milliFloat (stored windows (t.text fun c => milliText c.value)) = .ok c ∧
      c.distance = (List.range n).map fun i : ℕ => (i : ℝ) := by
  obtain ⟨hl, hk, hpos⟩ := hlog
  obtain ⟨r0, rest, e0, e⟩ := writeValues_header ht
  have hmem : ∀ name ∈ fieldColumns, ∀ r ∈ log, name ∈ r.keys := fun name hn r hr => (hk r hr name).mpr
    ((C93_columns_of_a_run (flowG stillFluxes)).mpr ⟨⟨300, 10000000000, by simp [flowG, flowModels, stillFluxes]⟩, Or.inr ⟨by simp [flowG, flowModels, stillFluxes],
      .radBasic 0 1, by simp [flowG, flowModels, stillFluxes], rfl⟩⟩ name hn)
  have hh : t.header ≠ [] := by
    rw [e]; exact List.ne_nil_of_mem (hmem "position" (by decide) r0 (by rw [e0]; simp))
  have hcr : ∀ n ∈ t.header, '\r' ∉ n.toList := by
    intro m hm
    rw [e] at hm
    exact noCr_columns _ m ((hk r0 (by rw [e0]; simp) m).mp hm)
  obtain ⟨h1, h2⟩ := C93_result_of_a_log (milliFormat windows) milliRound (fun c => milli_reads _) rfl (fun c => milli_clean _ _ (by simp)) log t ht hh hcr
  obtain ⟨c, hc⟩ := h1.mpr ⟨by omega, hmem⟩
  refine ⟨c, hc, ?_⟩
  have hd := (h2 c hc).1
  rw [curve_of_column_all hpos hd, List.map_map]
  refine List.map_congr_left fun i _ => ?_
  simpa using milli_int i

/-- **C93**, non-vacuity: a run of three lines, then its figure among field data, all three points of it. -/
example (windows : Bool) :
    ∃ out c, runTextOn [1] 3 (milliFormat windows) "still.json" "out" (fieldDisk windows) =
      some (.ok (), ("out/results_flowgo_example_1m3s.csv", out) :: fieldDisk windows) ∧
    fieldPlot (milliFormat windows) ["out/results_flowgo_example_1m3s.csv"] "still.json" "slope.txt" "temp.csv" "xtals.csv" "width.csv"
      (("out/results_flowgo_example_1m3s.csv", out) :: fieldDisk windows) =
        .ok { slope := [(0, 90, 0), (2000, 90, 0)], curves := [("out/flowgo_example_1m3".toList, c)], temperature := [(1, 1150)],
              crystal := [(2, 0.25)], width := [(2, 4)] } ∧
    c.distance = [0, 1, 2] := by
  have hjson : lookup (fieldDisk windows) "still.json" = some (stored windows (jsonDump milliText (stillConfig 3 3 (.int 1)))) := by
    unfold fieldDisk; rw [lookup_cons_eq, if_pos rfl]
  have hslope : lookup (fieldDisk windows) "slope.txt" = some milliProfile := by
    unfold fieldDisk
    rw [lookup_cons_eq, if_neg (by dsimp only; decide), lookup_cons_eq, if_pos rfl]
  have htemp : lookup (fieldDisk windows) "temp.csv" = some (stored windows ((milliPoint "Distance (m)" "Temperature C (glass method)" 1 1150).text fun c => milliText c.value)) := by
    unfold fieldDisk
    rw [lookup_cons_eq, if_neg (by dsimp only; decide), lookup_cons_eq, if_neg (by dsimp only; decide), lookup_cons_eq, if_pos rfl]
  have hxt : lookup (fieldDisk windows) "xtals.csv" = some (stored windows ((milliPoint "Distance (m)" "Total xtals" 2 0.25).text fun c => milliText c.value)) := by
    unfold fieldDisk
    rw [lookup_cons_eq, if_neg (by dsimp only; decide), lookup_cons_eq, if_neg (by dsimp only; decide), lookup_cons_eq,
      if_neg (by dsimp only; decide), lookup_cons_eq, if_pos rfl]
  have hwid : lookup (fieldDisk windows) "width.csv" = some (stored windows ((milliPoint "Distance (m)" "Measured Width (m)" 2 4).text fun c => milliText c.value)) := by
    unfold fieldDisk
    rw [lookup_cons_eq, if_neg (by dsimp only; decide), lookup_cons_eq, if_neg (by dsimp only; decide), lookup_cons_eq,
      if_neg (by dsimp only; decide), lookup_cons_eq, if_neg (by dsimp only; decide), lookup_cons_eq, if_pos rfl]
  obtain ⟨log, t, hlog, ht, hrun⟩ := milli_run_table windows 3 (by omega) (by omega) 1 (Or.inr rfl) "still.json" "out" (fieldDisk windows) hslope
    (by exact_mod_cast hjson)
  have e1 : resultFileName "out" "example" (toString (1 : Int)) = "out/results_flowgo_example_1m3s.csv" := by decide
  rw [e1] at hrun
  obtain ⟨c, hc, hcd⟩ := field_drawn windows 3 (by omega) log t hlog ht
  obtain ⟨lines, d1, d2, d3⟩ := (C93_curves_of_a_text _ _).mp hc
  have skip : ∀ p out, p ≠ "out/results_flowgo_example_1m3s.csv" →
      lookup (("out/results_flowgo_example_1m3s.csv", out) :: fieldDisk windows) p = lookup (fieldDisk windows) p := by
    intro p out hp
    rw [lookup_cons_eq, if_neg (by exact hp.symm)]
  have mi : ∀ m : ℤ, milliRound (m : ℝ) = m := milli_int
  refine ⟨_, c, hrun, ?_, by rw [hcd]; simp [List.range_succ]⟩
  have hload := (jsonLoads_iff milliFloat _ _).mp (C79_round_trip milliFloat milliText (stillConfig 3 3 (.int 1)) (still_distinct _ _ _)
        (still_nums _ _ (fun a b => milli_readable _ (by exact_mod_cast still_milli 3 a b)) _ _) windows)
  refine (C93_field_figure _ _ _ _ _ _ _ _ _).mpr ⟨by simp, ⟨_, _, (skip "still.json" _ (by decide)).trans hjson, hload⟩,
    ⟨_, (skip "slope.txt" _ (by decide)).trans hslope, milli_plot_samples⟩, ?_, ?_, ?_, ?_⟩
  · have := milli_point windows "Distance (m)" "Temperature C (glass method)" 1 1150 (by decide) (by decide) (by decide) "temp.csv" _
      ((skip _ (stored windows (t.text fun c => milliText c.value)) (by decide)).trans htemp)
    rwa [show milliRound 1 = 1 by simpa using mi 1, show milliRound 1150 = 1150 by simpa using mi 1150] at this
  · have := milli_point windows "Distance (m)" "Total xtals" 2 0.25 (by decide) (by decide) (by decide) "xtals.csv" _
      ((skip _ (stored windows (t.text fun c => milliText c.value)) (by decide)).trans hxt)
    rwa [show milliRound 2 = 2 by simpa using mi 2, show milliRound 0.25 = 0.25 by unfold milliRound; norm_num] at this
  · have := milli_point windows "Distance (m)" "Measured Width (m)" 2 4 (by decide) (by decide) (by decide) "width.csv" _
      ((skip _ (stored windows (t.text fun c => milliText c.value)) (by decide)).trans hwid)
    rwa [show milliRound 2 = 2 by simpa using mi 2, show milliRound 4 = 4 by simpa using mi 4] at this
  · exact .cons ⟨by dsimp only; decide, _, lines, by rw [lookup_cons_eq]; exact if_pos rfl, d1, d2, d3⟩ .nil

end PyFlowGo
