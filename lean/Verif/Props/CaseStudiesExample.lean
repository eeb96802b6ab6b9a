import Verif.Props.CaseStudiesMore
import Verif.Props.ScriptsExample
import Verif.Props.FieldPlotExample
/-
  C104 on an example: a run, then the figures of both case studies.
-/
set_option linter.unusedSectionVars false
namespace PyFlowGo
open Spec

/-- A table of field data with one line. -/
noncomputable def milliTable (delimiter : Char) (columns : List String) (f : String → ℝ) : List Char :=
  csvWrite delimiter [columns.map String.toList, columns.map fun n => milliText (f n)]

theorem milli_table (windows : Bool) (columns : List String) (f : String → ℝ) (hne : columns ≠ []) (hcr : ∀ n ∈ columns, '\r' ∉ n.toList)
    (path : String) (disk : List (String × List Char)) (h : lookup disk path = some (stored windows (milliTable ';' columns f))) :
    TableHas (milliFormat windows) disk path ';' columns [columns.map fun n => milliRound (f n)] := by
  refine ⟨_, [columns.map fun n => (n.toList, some (milliText (f n)))], h, ?_, .cons ?_ .nil⟩
  · unfold milliTable
    rw [dictRead_write ⟨by decide, by decide, by decide⟩ (columns.map String.toList) [columns.map fun n => milliText (f n)] (by simpa using hne)
      (by intro r hr; rw [List.mem_singleton] at hr; rw [hr]; simpa using hne)
      (by intro t ht; obtain ⟨n, hn, rfl⟩ := List.mem_map.mp ht; exact hcr n hn)
      (by
        intro r hr t ht
        rw [List.mem_singleton] at hr
        rw [hr] at ht
        obtain ⟨n, _, rfl⟩ := List.mem_map.mp ht
        exact milli_clean _ _ (by simp)) windows, List.map_singleton, dictZip_map]
  · rw [List.forall₂_map_right_iff, List.forall₂_same]
    intro n hn
    unfold dictFloat
    rw [dictField_row, if_pos hn, ok_bind]
    dsimp only
    rw [show (milliFormat windows).float (milliText (f n)) = some (milliRound (f n)) from milli_reads _]

/-- A result of the example with two or three lines can be drawn by the Venus script. -/
theorem venus_drawn (windows : Bool) (n : ℕ) (hn : 2 ≤ n) (log : Log (Cell ℝ)) (t : CsvTable (Cell ℝ))
    (hlog : log.length = n ∧ (∀ r ∈ log, ∀ c, c ∈ r.keys ↔ c ∈ runColumns (flowG stillFluxes)) ∧
        ColumnIs log "position" ((List.range n).map fun i : ℕ => (i : ℝ))) (ht : writeValues log = .ok (some t)) :
    ∃ c, venusResult milliFloat (stored windows (t.text fun c => milliText c.value)) = .ok c := by
  obtain ⟨hl, hk, hpos⟩ := hlog
  obtain ⟨r0, rest, e0, e⟩ := writeValues_header ht
  have hmem : ∀ name ∈ venusColumns, ∀ r ∈ log, name ∈ r.keys := fun name hn r hr => (hk r hr name).mpr
    ((C104_columns_of_a_run (flowG stillFluxes)).mpr ⟨⟨300, 10000000000, by simp [flowG, flowModels, stillFluxes]⟩, Or.inr ⟨by simp [flowG, flowModels, stillFluxes],
      .radBasic 0 1, by simp [flowG, flowModels, stillFluxes], rfl⟩⟩ name hn)
  have hh : t.header ≠ [] := by
    rw [e]; exact List.ne_nil_of_mem (hmem "position" (by decide) r0 (by rw [e0]; simp))
  have hcr : ∀ n ∈ t.header, '\r' ∉ n.toList := by
    intro m hm
    rw [e] at hm
    exact noCr_columns _ m ((hk r0 (by rw [e0]; simp) m).mp hm)
  exact (C104_result_of_a_log (milliFormat windows) milliRound (fun c => milli_reads _) rfl (fun c => milli_clean _ _ (by simp)) log t ht hh hcr).mpr
    ⟨by omega, hmem⟩

/-- The same as `milli_plot_samples`, with all five columns. -/
theorem milli_full_samples : FullSamples milliFloat (dataLines milliProfile) [(0, 90, 0), (2000, 90, 0)] := by
  refine ⟨milli_plot_samples, ?_⟩
  have e0 : milliFloat (milliText 0) = some 0 := by rw [milli_reads]; simpa using milli_int 0
  have hone : ∀ x, '\t' ∉ milliText x ∧ OneLine (milliText x) := fun x =>
    ⟨milli_clean x _ (by simp), milli_clean x _ (by simp), milli_clean x _ (by simp)⟩
  have hd : dataLines milliProfile = [[milliText 0, milliText 0, milliText 0, milliText 0, milliText 90],
      [milliText 0, milliText 0, milliText 0, milliText 2000, milliText 90]] := by
    refine dataLines_tabFile .lf true ['h'] (by simp [OneLine]) _ ?_ (Or.inl rfl)
    intro r hr
    simp only [List.mem_cons, List.not_mem_nil, or_false] at hr
    rcases hr with rfl | rfl
    · exact ⟨by simp, by simp [hone]⟩
    · exact ⟨by simp, by simp [hone]⟩
  rw [hd]
  intro fields hf i hi
  have hi : i = 0 ∨ i = 1 := by omega
  simp only [List.mem_cons, List.not_mem_nil, or_false] at hf
  rcases hf with rfl | rfl <;> rcases hi with rfl | rfl <;> exact ⟨_, _, rfl, e0⟩

theorem milli_slope_samples : SlopeSamples milliFloat (dataLines milliProfile) [(0, 90), (2000, 90)] := by
  have h := milli_plot_samples
  unfold ProfileSamples at h
  unfold SlopeSamples
  rw [show ([(0, 90), (2000, 90)] : List (ℝ × ℝ)) = ([(0, 90, 0), (2000, 90, 0)] : List (ℝ × ℝ × ℝ)).map fun s => (s.1, s.2.1) from rfl,
    List.forall₂_map_right_iff]
  exact h.imp fun a b h => ⟨h.1, h.2.1⟩

/-- The files of the example. -/
noncomputable def studyDisk (windows : Bool) : List (String × List Char) :=
  ("glass.csv", stored windows (milliTable ';' glassColumns fun _ => 1)) ::
  ("xtals.csv", stored windows (milliTable ';' crystalColumns fun _ => 2)) ::
  ("width.csv", stored windows ((milliPoint "Distance (m)" "Measured Width (m)" 2 4).text fun c => milliText c.value)) :: milliPlotDisk windows

theorem study_lookup (windows : Bool) (path : String) (h : path ≠ "glass.csv" ∧ path ≠ "xtals.csv" ∧ path ≠ "width.csv") :
    lookup (studyDisk windows) path = lookup (milliPlotDisk windows) path := by
  unfold studyDisk
  rw [lookup_cons_eq, if_neg (fun e => h.1 e.symm), lookup_cons_eq, if_neg (fun e => h.2.1 e.symm), lookup_cons_eq, if_neg (fun e => h.2.2 e.symm)]

/-- The run of the example, with what is drawn of its result. -/
theorem study_run (windows : Bool) : ∃ out c e, runAndName [1] 3 (milliFormat windows) "still.json" "out" (studyDisk windows) =
      some (.ok "out/results_flowgo_example_1m3s.csv", ("out/results_flowgo_example_1m3s.csv", out) :: studyDisk windows) ∧
    venusResult milliFloat out = .ok c ∧ fieldResult milliFloat out = .ok e ∧ e.distance = [0, 1, 2] := by
  obtain ⟨log, t, hlog, ht, hrun⟩ := milli_run_table windows 3 (by omega) (by omega) 1 (Or.inr rfl) "still.json" "out" (studyDisk windows)
    (by rw [study_lookup _ _ (by decide)]; exact milliPlot_slope windows) (by rw [study_lookup _ _ (by decide)]; exact milliPlot_json windows)
  rw [milliPlot_name] at hrun
  obtain ⟨c, hc⟩ := venus_drawn windows 3 (by omega) log t hlog ht
  obtain ⟨e, he, hed⟩ := field_drawn windows 3 (by omega) log t hlog ht
  have hj : lookup (studyDisk windows) ((milliFormat windows).canon "still.json") =
      some (stored windows (jsonDump milliText (stillConfig 3 ((3 : ℕ) : ℝ) (.int 1)))) :=
    (study_lookup windows "still.json" (by decide)).trans (milliPlot_json windows)
  generalize stored windows (t.text fun c => milliText c.value) = out at hrun hc he
  refine ⟨out, c, e, ?_, hc, he, by rw [hed]; simp [List.range_succ]⟩
  exact (runAndName_iff (milliFormat windows) [1] 3 "still.json" "out" (milli_results_apart windows) (studyDisk windows) _ _).mpr
    ⟨hrun, _, stillConfig 3 ((3 : ℕ) : ℝ) (.int 1), .int 1, .str "example",
      hj, milliPlot_load windows,
      ⟨_, rfl, rfl⟩, ⟨_, rfl, rfl⟩, milliPlot_name.symm, Or.inr ⟨_, rfl⟩⟩

theorem exists_highest (xs : List ℝ) (h : xs ≠ []) : (∃ m, Highest xs m) ∧ ∃ m, Lowest xs m := by
  cases xs with
  | nil => exact absurd rfl h
  | cons a l => exact ⟨⟨_, (maxList_iff (a :: l) _).mp rfl⟩, ⟨_, (minList_iff (a :: l) _).mp rfl⟩⟩

/-- **C104**, non-vacuity: a run and the Venus figure. -/
example (windows : Bool) : ∃ d fig, d ≠ studyDisk windows ∧ venusScript [1] 3 (milliFormat windows) "still.json" "out"
    "out/results_flowgo_example_1m3s.csv" "slope.txt" (studyDisk windows) = some (.ok fig, d) := by
  obtain ⟨out, c, _, hrun, hc, _⟩ := study_run windows
  obtain ⟨lines, d1, d2, d3⟩ := (C104_venus_curves_of_a_text _ _).mp hc
  have hdrawn : VenusDrawn (milliFormat windows) (("out/results_flowgo_example_1m3s.csv", out) :: studyDisk windows)
      "out/results_flowgo_example_1m3s.csv" c := ⟨out, lines, by rw [lookup_cons_eq]; exact if_pos rfl, d1, d2, d3⟩
  have ne : ∀ {name f xs}, CurveIn milliFloat lines name f xs → xs ≠ [] := by
    intro name f xs h e
    have := List.Forall₂.length_eq h
    rw [e, List.length_nil] at this
    omega
  obtain ⟨m1, h1⟩ := (exists_highest _ (ne d3.slope)).1
  obtain ⟨m2, h2⟩ := (exists_highest _ (ne d3.temperature)).2
  obtain ⟨m3, h3⟩ := (exists_highest _ (ne d3.temperature)).1
  obtain ⟨m4, h4⟩ := (exists_highest _ (ne d3.velocity)).1
  refine ⟨_, ⟨[(0, 90), (2000, 90)], [(venusLabel "out/results_flowgo_example_1m3s.csv", c), (venusLabel "out/results_flowgo_example_1m3s.csv", c)],
    m1, m2, m3, m4⟩, by simp, (C104_venus_figure (milliFormat windows) [1] 3 "still.json" "out" _ "slope.txt" (studyDisk windows)
      (("out/results_flowgo_example_1m3s.csv", out) :: studyDisk windows) _).mpr
    ⟨_, milliProfile, c, c, hrun, ?_, milli_slope_samples, rfl, hdrawn, hdrawn, h1, h2, h3, h4⟩⟩
  rw [lookup_cons_eq, if_neg (by show "out/results_flowgo_example_1m3s.csv" ≠ "slope.txt"; decide)]
  show lookup (studyDisk windows) "slope.txt" = _
  rw [study_lookup _ _ (by decide)]
  exact milliPlot_slope windows

/-- **C104**, non-vacuity: a run and the Mauna Ulu figure. -/
example (windows : Bool) : ∃ d c, d ≠ studyDisk windows ∧ maunaUluScript [1] 3 (milliFormat windows) "still.json" "out" [] "glass.csv" "xtals.csv"
    "width.csv" "slope.txt" (studyDisk windows) = some (.ok ⟨[[1, 1, 1, 1, 1, 1]], [[2, 2, 2, 2, 2]], [(2, 4)], [(0, 90, 0), (2000, 90, 0)], [c]⟩, d) := by
  obtain ⟨out, _, e, hrun, _, he, _⟩ := study_run windows
  obtain ⟨lines, d1, d2, d3⟩ := (C93_curves_of_a_text _ _).mp he
  have skip : ∀ p, p ≠ "out/results_flowgo_example_1m3s.csv" →
      lookup (("out/results_flowgo_example_1m3s.csv", out) :: studyDisk windows) p = lookup (studyDisk windows) p := by
    intro p hp
    rw [lookup_cons_eq, if_neg (by exact hp.symm)]
  have mi : ∀ m : ℤ, milliRound (m : ℝ) = m := milli_int
  have m1 : milliRound 1 = 1 := by simpa using mi 1
  have m2 : milliRound 2 = 2 := by simpa using mi 2
  have m4 : milliRound 4 = 4 := by simpa using mi 4
  refine ⟨_, (maunaUluLabel "out/results_flowgo_example_1m3s.csv", e), by simp, (C104_mauna_ulu_figure (milliFormat windows) [1] 3 "still.json" "out" []
    "glass.csv" "xtals.csv" "width.csv" "slope.txt" (studyDisk windows) (("out/results_flowgo_example_1m3s.csv", out) :: studyDisk windows) _).mpr
    ⟨_, milliProfile, hrun, ?_, ?_, ?_, ?_, milli_full_samples, ?_⟩⟩
  · have := milli_table windows glassColumns (fun _ => 1) (by decide) (by decide) "glass.csv" _ ((skip _ (by decide)).trans (by
      unfold studyDisk; rw [lookup_cons_eq, if_pos rfl]))
    simp only [m1] at this
    exact this
  · have := milli_table windows crystalColumns (fun _ => 2) (by decide) (by decide) "xtals.csv" _ ((skip _ (by decide)).trans (by
      unfold studyDisk; rw [lookup_cons_eq, if_neg (by dsimp only; decide), lookup_cons_eq, if_pos rfl]))
    simp only [m2] at this
    exact this
  · have := milli_point windows "Distance (m)" "Measured Width (m)" 2 4 (by decide) (by decide) (by decide) "width.csv" _
      ((skip _ (by decide)).trans (by
        unfold studyDisk
        rw [lookup_cons_eq, if_neg (by dsimp only; decide), lookup_cons_eq, if_neg (by dsimp only; decide), lookup_cons_eq, if_pos rfl]))
    rwa [m2, m4] at this
  · refine (skip "slope.txt" (by decide)).trans ?_
    rw [study_lookup _ _ (by decide)]
    exact milliPlot_slope windows
  · exact .cons ⟨rfl, out, lines, by rw [lookup_cons_eq]; exact if_pos rfl, d1, d2, d3⟩ .nil

end PyFlowGo
