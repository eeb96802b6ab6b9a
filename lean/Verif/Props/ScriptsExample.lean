import Verif.Props.Scripts
import Verif.Props.SweepTextExample
/-
  C103: non-vacuity.
-/
set_option linter.unusedSectionVars false
namespace PyFlowGo
open Spec

/-- The folder of the examples keeps results and configuration apart. -/
theorem milli_results_apart (windows : Bool) : Apart (milliFormat windows) "out" "still.json" := by
  intro lava rate h
  have h : (resultFileName "out" lava rate).toList = "still.json".toList := congrArg String.toList h
  unfold resultFileName at h
  rw [pathJoin_rel _ _ (by simp)] at h
  have : "out" ≠ "" := by decide
  rw [show (if "out".isEmpty || "out".toList.getLast? == some '/' then "out" else "out" ++ "/") = "out/" by decide] at h
  rw [String.toList_append] at h
  have := congrArg List.head? h
  rw [show "out/".toList = 'o' :: "ut/".toList by decide, List.cons_append, List.head?_cons] at this
  exact absurd this (by decide)

/-- The disk of the example: a configuration and a slope profile. -/
noncomputable def milliPlotDisk (windows : Bool) : List (String × List Char) :=
  [("still.json", stored windows (jsonDump milliText (stillConfig 3 ((3 : ℕ) : ℝ) (.int 1)))), ("slope.txt", milliProfile)]

theorem milliPlot_json (windows : Bool) : lookup (milliPlotDisk windows) "still.json" =
    some (stored windows (jsonDump milliText (stillConfig 3 ((3 : ℕ) : ℝ) (.int 1)))) := by
  unfold milliPlotDisk
  rw [lookup_cons_eq, if_pos rfl]

theorem milliPlot_slope (windows : Bool) : lookup (milliPlotDisk windows) "slope.txt" = some milliProfile := by
  unfold milliPlotDisk
  rw [lookup_cons_eq, if_neg (by show "still.json" ≠ "slope.txt"; decide), lookup_cons_eq, if_pos rfl]

theorem milliPlot_load (windows : Bool) : JsonText milliFloat
    (universal (stored windows (jsonDump milliText (stillConfig 3 ((3 : ℕ) : ℝ) (.int 1))))) (stillConfig 3 ((3 : ℕ) : ℝ) (.int 1)) :=
  (jsonLoads_iff _ _ _).mp (C79_round_trip milliFloat milliText _ (still_distinct _ _ _)
    (still_nums _ _ (fun a b => milli_readable _ (still_milli 3 a b)) _ _) windows)

theorem milliPlot_name : resultFileName "out" "example" (toString (1 : Int)) = "out/results_flowgo_example_1m3s.csv" := by decide

theorem milliPlot_label : plotLabel "out" "out/results_flowgo_example_1m3s.csv" = "example_1m3s".toList := by
  rw [← milliPlot_name, C91_label_of_a_result _ _ _ (label_safe _ _ (by decide) (by decide))]
  show ("example" ++ "_" ++ toString (1 : Int) ++ "m3s").toList = "example_1m3s".toList
  decide

/-- `main_run_flowgo.py` on the example. -/
theorem milliPlot_main (windows : Bool) (out : List Char)
    (hrun : runTextOn [1] 3 (milliFormat windows) "still.json" "out" (milliPlotDisk windows) =
      some (.ok (), ("out/results_flowgo_example_1m3s.csv", out) :: milliPlotDisk windows)) :
    mainRun [1] 3 (milliFormat windows) "still.json" "out" (milliPlotDisk windows) =
      some (.ok "out/results_flowgo_example_1m3s.csv", ("out/results_flowgo_example_1m3s.csv", out) :: milliPlotDisk windows) :=
  (C103_main_run (milliFormat windows) [1] 3 "still.json" "out" (milli_results_apart windows) (milliPlotDisk windows) _ _).mpr
    ⟨hrun, _, stillConfig 3 ((3 : ℕ) : ℝ) (.int 1), .int 1, .str "example", milliPlot_json windows, milliPlot_load windows,
      ⟨_, rfl, rfl⟩, ⟨_, rfl, rfl⟩, milliPlot_name.symm, Or.inr ⟨out, rfl⟩⟩

/-- The figure after the run. -/
theorem milliPlot_draw (windows : Bool) (out : List Char) (c : PlotCurves ℝ) (hc : plotFileText milliFloat false out = .ok (c, true)) :
    plotAllText (milliFormat windows) "out" ["out/results_flowgo_example_1m3s.csv", "out/results_flowgo_example_1m3s.csv"] "still.json"
      (("out/results_flowgo_example_1m3s.csv", out) :: milliPlotDisk windows) =
      .ok ([(0, 90, 0), (2000, 90, 0)], [("example_1m3s".toList, c), ("example_1m3s".toList, c)]) := by
  obtain ⟨first, rest, d1, d2, d3, d4, _⟩ := (C91_curves_of_a_text _ _ _ _).mp hc
  have hone : Drawn (milliFormat windows) (("out/results_flowgo_example_1m3s.csv", out) :: milliPlotDisk windows)
      "out/results_flowgo_example_1m3s.csv" c :=
    ⟨out, first, rest, by rw [lookup_cons_eq]; exact if_pos rfl, d1, d2, d3, d4⟩
  refine (C91_plot_all_results (milliFormat windows) "out" _ "still.json" _ _ _).mpr ⟨stored windows (jsonDump milliText (stillConfig 3 ((3 : ℕ) : ℝ) (.int 1))),
    stillConfig 3 ((3 : ℕ) : ℝ) (.int 1), "slope.txt", milliProfile, ?_, milliPlot_load windows, ?_, ?_, milli_plot_samples, ?_⟩
  · rw [lookup_cons_eq, if_neg (by show "out/results_flowgo_example_1m3s.csv" ≠ "still.json"; decide)]
    exact milliPlot_json windows
  · exact ⟨_, rfl, rfl⟩
  · rw [lookup_cons_eq, if_neg (by show "out/results_flowgo_example_1m3s.csv" ≠ "slope.txt"; decide)]
    exact milliPlot_slope windows
  · exact .cons ⟨milliPlot_label.symm, hone⟩ (.cons ⟨milliPlot_label.symm, hone⟩ .nil)

/-- The result of the example run can be drawn after it. -/
theorem milli_plotted (windows : Bool) : ∃ out cs,
    mainRunAndPlot [1] 3 (milliFormat windows) "still.json" "out" "out/results_flowgo_example_1m3s.csv" (milliPlotDisk windows) =
        some (.ok cs, ("out/results_flowgo_example_1m3s.csv", out) :: milliPlotDisk windows) := by
  obtain ⟨log, t, hlog, ht, hrun⟩ := milli_run_table windows 3 (by omega) (by omega) 1 (Or.inr rfl) "still.json" "out"
    (milliPlotDisk windows) (milliPlot_slope windows) (milliPlot_json windows)
  rw [milliPlot_name] at hrun
  obtain ⟨c, hc, _⟩ := milli_drawn windows false log t hlog ht
  refine ⟨stored windows (t.text fun c => milliText c.value),
    ([(0, 90, 0), (2000, 90, 0)], [("example_1m3s".toList, c), ("example_1m3s".toList, c)]), ?_⟩
  unfold mainRunAndPlot
  rw [milliPlot_main windows _ hrun]
  dsimp only
  rw [milliPlot_draw windows _ c hc]

/-- **C103**, non-vacuity: a complete run and its figure. -/
example (windows : Bool) : ∃ disk d cs, d ≠ disk ∧ mainRunAndPlot [1] 3 (milliFormat windows) "still.json" "out"
    "out/results_flowgo_example_1m3s.csv" disk = some (.ok cs, d) := by
  obtain ⟨out, cs, h⟩ := milli_plotted windows
  exact ⟨_, _, _, by simp, h⟩

/-- **C103**, non-vacuity: a run that logs nothing (gravity points upwards) and leaves the disk as it is. -/
example (windows : Bool) (old : List Char) : ∃ disk, lookup disk "out/results_flowgo_example_0m3s.csv" = some old ∧
    runTextOn [1] 1 (milliFormat windows) "still.json" "out" disk = some (.ok (), disk) := by
  let disk : List (String × List Char) := [("out/results_flowgo_example_0m3s.csv", old), ("slope.txt", milliProfile),
    ("still.json", stored windows (jsonDump milliText (stillConfig (-3) 3 (.int 0))))]
  refine ⟨disk, by rw [lookup_cons_eq, if_pos rfl], ?_⟩
  have hn : ∀ a b, milliRound (stillNum (-3) 3 a b) = stillNum (-3) 3 a b := by
    intro a b
    by_cases hb : b = "gravity"
    · subst hb
      show milliRound (-3) = -3
      simpa using milli_int (-3)
    · have : stillNum (-3) 3 a b = stillNum 3 ((3 : ℕ) : ℝ) a b := by
        unfold stillNum; split <;> simp_all
      rw [this]; exact still_milli 3 a b
  have hload : JsonText milliFloat (universal (stored windows (jsonDump milliText (stillConfig (-3) 3 (.int 0))))) (stillConfig (-3) 3 (.int 0)) :=
    (jsonLoads_iff _ _ _).mp (C79_round_trip milliFloat milliText (stillConfig (-3) 3 (.int 0)) (still_distinct _ _ _)
        (still_nums _ _ (fun a b => milli_readable _ (hn a b)) _ _) windows)
  have hslope : (textEnv (milliFormat windows) disk).slopeFile "slope.txt" = some [⟨0, 0, 0, 0, 90⟩, ⟨0, 0, 0, 2000, 90⟩] := by
    have : lookup disk "slope.txt" = some milliProfile := by
      rw [lookup_cons_eq, if_neg (by show "out/results_flowgo_example_0m3s.csv" ≠ "slope.txt"; decide), lookup_cons_eq, if_pos rfl]
    show (lookup disk "slope.txt").bind (fun t => (slopeRows milliFloat (dataLines t)).toOption) = _
    rw [this, Option.bind_some, milli_profile]
    rfl
  rw [runTextOn_value (milliFormat windows) [1] 1 "still.json" "out" disk _ _ (by
    show lookup disk "still.json" = _
    rw [lookup_cons_eq, if_neg (by show "out/results_flowgo_example_0m3s.csv" ≠ "still.json"; decide), lookup_cons_eq,
      if_neg (by show "slope.txt" ≠ "still.json"; decide), lookup_cons_eq, if_pos rfl]) hload,
    silent_run_in (textEnv (milliFormat windows) disk) hslope "still.json" "out" _ (by rw [lookup_cons_eq]; exact if_pos rfl)]
  rfl

/-- **C103**, non-vacuity: `main_plot_flowgo_results.py` on the result of the run. -/
example (windows : Bool) : ∃ disk cs, mainPlot (milliFormat windows) "out" ["out/results_flowgo_example_1m3s.csv", "out/results_flowgo_example_1m3s.csv"]
    "still.json" disk = .ok cs ∧ cs.2.length = 2 := by
  obtain ⟨log, t, hlog, ht, hrun⟩ := milli_run_table windows 3 (by omega) (by omega) 1 (Or.inr rfl) "still.json" "out"
    (milliPlotDisk windows) (milliPlot_slope windows) (milliPlot_json windows)
  obtain ⟨c, hc, _⟩ := milli_drawn windows false log t hlog ht
  generalize stored windows (t.text fun c => milliText c.value) = out at hc
  refine ⟨("out/results_flowgo_example_1m3s.csv", out) :: milliPlotDisk windows, _, (C103_main_plot (milliFormat windows) "out" _ "still.json" _ _ _).mpr
    ((C91_plot_all_results (milliFormat windows) "out" _ "still.json" _ _ _).mp (milliPlot_draw windows out c hc)), rfl⟩

/-- **C82**, non-vacuity of the name: the run of the example. -/
example (windows : Bool) : ∃ disk d text data rate lava, runTextOn [1] 3 (milliFormat windows) "still.json" "out" disk = some (.ok (), d) ∧ d ≠ disk ∧
    lookup disk ((milliFormat windows).canon "still.json") = some text ∧ JsonText (milliFormat windows).float (universal text) data ∧
    TopEntry data "effusion_rate_init" rate ∧ TopEntry data "lava_name" lava ∧
    WrittenAs (milliFormat windows) rate "1" ∧ WrittenAs (milliFormat windows) lava "example" := by
  obtain ⟨out, h⟩ := milli_run windows 3 (by norm_num) (by norm_num) "out"
  have hl : lookup (milliDisk 3) ((milliFormat windows).canon "still.json") = some (jsonDump milliText (stillConfig 3 ((3 : ℕ) : ℝ) (.int 1))) := by
    show lookup (milliDisk 3) "still.json" = _
    unfold milliDisk; rw [lookup_cons_eq, if_pos rfl]
  have hload : jsonLoad (milliFormat windows).float (jsonDump milliText (stillConfig 3 ((3 : ℕ) : ℝ) (.int 1))) = .ok (stillConfig 3 ((3 : ℕ) : ℝ) (.int 1)) := by
    have := C79_round_trip milliFloat milliText (stillConfig 3 ((3 : ℕ) : ℝ) (.int 1)) (still_distinct _ _ _)
      (still_nums _ _ (fun a b => milli_readable _ (still_milli 3 a b)) _ _) false
    simp only [stored, Bool.false_eq_true, if_false] at this
    exact this
  refine ⟨_, _, _, _, .int 1, .str "example", h, by simp, hl, (jsonLoads_iff _ _ _).mp hload, ⟨_, rfl, rfl⟩, ⟨_, rfl, rfl⟩, ?_, .text _⟩
  exact .int 1

/-- **C103**, non-vacuity: a file that holds an empty list. -/
example (windows : Bool) : mainRun [1] 3 (milliFormat windows) "list.json" "out" [("list.json", jsonDump milliText (.arr []))] =
    some (.error .attributeError, [("list.json", jsonDump milliText (.arr []))]) := by
  have hload : jsonLoad (milliFormat windows).float (jsonDump milliText (.arr [])) = .ok (.arr []) := by
    have := C79_round_trip milliFloat milliText (.arr []) (by simp [DistinctKeys, DistinctElements]) (by simp [NumsAll, NumsElements]) false
    simp only [stored, Bool.false_eq_true, if_false] at this
    exact this
  exact (C103_not_an_object (milliFormat windows) [1] 3 "list.json" "out" "" [] _ _ (.arr []) (by rw [lookup_cons_eq]; exact if_pos rfl)
    ((jsonLoads_iff _ _ _).mp hload) (fun l h => by cases h)).1

end PyFlowGo
