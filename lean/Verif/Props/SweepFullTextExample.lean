import Verif.Props.SweepFullText
import Verif.Props.PlotTextExample
/-
  C92 on an example: a complete sweep over the rates 0 and 1.
-/
set_option linter.unusedSectionVars false
namespace PyFlowGo
open Spec

theorem milli_apart (windows : Bool) : Apart (milliFormat windows) (stillConfig 3 3 (.int 1)) "example" "still.json" "out" "slope.txt" := by
  have hwork : workingFile "still.json" "out" = "out/still.json" := by decide
  have htab : runOutsPath "out" "example" = "out/run_outs_example.csv" := by decide
  refine ⟨?_, ?_, ?_, ?_, ?_⟩
  · intro path hp
    have hp' : path = "slope.txt" ∨ path = "resources/crust_temperature_profile.txt" := by
      rcases hp with hp | hp
      · exact still_mayRead 3 1 path (by exact_mod_cast hp)
      · exact Or.inl hp
    rw [hwork]
    show path ≠ "out/still.json" ∧ ∀ r : Int, path ≠ resultFileName "out" "example" (toString r)
    rcases hp' with rfl | rfl
    · exact ⟨by decide, fun r => out_result_ne _ _ (by decide)⟩
    · exact ⟨by decide, fun r => out_result_ne _ _ (by decide)⟩
  · intro a b h
    exact C57_names_distinct "out" "example" a b h
  · intro r
    rw [hwork]
    exact fun e => out_result_ne _ "out/still.json" (by decide) e.symm
  · intro r
    exact out_result_ne _ "still.json" (by decide)
  · rw [htab]
    refine ⟨by show "slope.txt" ≠ "out/run_outs_example.csv"; decide, fun r e => ?_⟩
    have e : resultFileName "out" "example" (toString r) = "out/run_outs_example.csv" := e
    have := congrArg String.toList e
    rw [out_result] at this
    have h6 := congrArg (fun l : List Char => l.take 6) this
    simp at h6

theorem milli_full (windows : Bool) (round : Nat → ℝ → ℝ) :
    ∃ figs disk', ∃ rs : List RateResult,
      sweepFullText [1] 3 round (milliFormat windows) milliText "still.json" "out" "slope.txt" 0 1 1 (milliDisk 3) = some (.ok figs, disk') ∧
      figs.curves = rs.map (fun x => (x.label, x.curves)) ∧ rs.map (·.rate) = [0, 1] ∧
      ∀ x ∈ rs, RateDone [1] 3 round (milliFormat windows) (stillConfig 3 3 (.int 1)) "example" "still.json" "out" "slope.txt" (milliDisk 3) disk' x := by
  have hl : lookup (milliDisk 3) ((milliFormat windows).canon "still.json") = some (jsonDump milliText (stillConfig 3 (3 : ℕ) (.int 1))) := by
    show lookup (milliDisk 3) "still.json" = _
    unfold milliDisk; rw [lookup_cons_eq, if_pos rfl]
  have hslope : lookup (milliDisk 3) "slope.txt" = some milliProfile := by
    unfold milliDisk; rw [lookup_cons_eq, if_neg (by simp), lookup_cons_eq, if_pos rfl]
  have hnums := still_nums (Readable milliFloat milliText) (stillNum 3 (3 : ℕ)) (fun a b => milli_readable _ (still_milli 3 a b)) stillChoice 1
  have hload : JsonText (milliFormat windows).float (universal (jsonDump milliText (stillConfig 3 (3 : ℕ) (.int 1)))) (stillConfig 3 (3 : ℕ) (.int 1)) := by
    have := C79_round_trip milliFloat milliText (stillConfig 3 (3 : ℕ) (.int 1)) (still_distinct _ _ _) hnums false
    simp only [stored, Bool.false_eq_true, if_false] at this
    exact (jsonLoads_iff _ _ _).mp this
  obtain ⟨log0, t0, log1, t1, hlog0, ht0, hlog1, ht1, hs⟩ := milli_sweep_tables windows 3 (by omega) (by omega)
  have hlava : TopEntry (stillConfig 3 (3 : ℕ) (.int 1)) "lava_name" (.str "example") := ⟨_, rfl, by rw [lookup_cons_eq]; exact if_pos rfl⟩
  have hsl : TopEntry (stillConfig 3 (3 : ℕ) (.int 1)) "slope_file" (.str "slope.txt") :=
    ⟨_, rfl, by rw [lookup_cons_eq, if_neg (by dsimp only; decide), lookup_cons_eq]; exact if_pos rfl⟩
  have hcast : stillConfig 3 (3 : ℕ) (.int 1) = stillConfig 3 3 (.int 1) := by norm_num
  have hap : Apart (milliFormat windows) (stillConfig 3 (3 : ℕ) (.int 1)) ((Json.str "example" : Json ℝ).show (textEnv (milliFormat windows) (milliDisk 3)))
      "still.json" "out" "slope.txt" := by
    rw [hcast]; exact milli_apart windows
  have hid : '\r' ∉ ((Json.str "example" : Json ℝ).show (textEnv (milliFormat windows) (milliDisk 3))).toList := by
    show '\r' ∉ "example".toList
    decide
  obtain ⟨d0, hd0, _⟩ := milli_drawn windows false log0 t0 hlog0 ht0
  obtain ⟨d1, hd1, _⟩ := milli_drawn windows false log1 t1 hlog1 ht1
  obtain ⟨l0, hl0⟩ := milli_reported windows 3 (by omega) (by omega) log0 t0 hlog0 ht0 round
  obtain ⟨l1, hl1⟩ := milli_reported windows 3 (by omega) (by omega) log1 t1 hlog1 ht1 round
  obtain ⟨f0, r0, a1, a2, a3, a4, _⟩ := (C91_curves_of_a_text _ _ _ _).mp hd0
  obtain ⟨f1, r1, b1, b2, b3, b4, _⟩ := (C91_curves_of_a_text _ _ _ _).mp hd1
  have hk0 : ∀ x y z w : List Char, lookup (("out/results_flowgo_example_1m3s.csv", x) :: ("out/still.json", y) ::
      ("out/results_flowgo_example_0m3s.csv", z) :: ("out/still.json", w) :: milliDisk 3) "out/results_flowgo_example_0m3s.csv" = some z := by
    intro x y z w
    rw [lookup_cons_eq, if_neg (by dsimp only; decide), lookup_cons_eq, if_neg (by dsimp only; decide), lookup_cons_eq, if_pos rfl]
  have hk1 : ∀ x y z w : List Char, lookup (("out/results_flowgo_example_1m3s.csv", x) :: ("out/still.json", y) ::
      ("out/results_flowgo_example_0m3s.csv", z) :: ("out/still.json", w) :: milliDisk 3) "out/results_flowgo_example_1m3s.csv" = some x := by
    intro x y z w
    rw [lookup_cons_eq, if_pos rfl]
  have hks : ∀ x y z w : List Char, lookup (("out/results_flowgo_example_1m3s.csv", x) :: ("out/still.json", y) ::
      ("out/results_flowgo_example_0m3s.csv", z) :: ("out/still.json", w) :: milliDisk 3) "slope.txt" = some milliProfile := by
    intro x y z w
    rw [lookup_cons_eq, if_neg (by dsimp only; decide), lookup_cons_eq, if_neg (by dsimp only; decide), lookup_cons_eq, if_neg (by dsimp only; decide), lookup_cons_eq,
      if_neg (by dsimp only; decide)]
    exact hslope
  obtain ⟨figs, disk', hfull⟩ := C92_sweep_completes [1] 3 round (milliFormat windows) milliText "still.json" "out" "slope.txt" 0 1 1 (milliDisk 3)
    _ (stillConfig 3 (3 : ℕ) (.int 1)) (.str "example") milliRound (fun c => milli_reads _) (fun c => milli_clean _ _ (by simp)) hl hload hnums hlava
    hid hap _ _ hs (by simp) "slope.txt" milliProfile [(0, 90, 0), (2000, 90, 0)] hsl hslope milli_plot_samples
    (by
      intro name hn
      simp only [List.mem_cons, List.not_mem_nil, or_false] at hn
      rcases hn with rfl | rfl
      · exact ⟨d0, _, f0, r0, hk0 _ _ _ _, a1, a2, a3, a4⟩
      · exact ⟨d1, _, f1, r1, hk1 _ _ _ _, b1, b2, b3, b4⟩)
    (by
      intro name hn
      simp only [List.mem_cons, List.not_mem_nil, or_false] at hn
      rcases hn with rfl | rfl
      · exact ⟨l0, _, milliProfile, hk0 _ _ _ _, hks _ _ _ _, (C90_run_out_of_a_text _ _ _ _ _).mp hl0⟩
      · exact ⟨l1, _, milliProfile, hk1 _ _ _ _, hks _ _ _ _, (C90_run_out_of_a_text _ _ _ _ _).mp hl1⟩)
  obtain ⟨rs, _, hrates, hdone, hcurves, _⟩ := C92_complete_sweep [1] 3 round (milliFormat windows) milliText "still.json" "out" "slope.txt" 0 1 1
    (milliDisk 3) _ (stillConfig 3 (3 : ℕ) (.int 1)) (.str "example") milliRound (fun c => milli_reads _) (fun c => milli_clean _ _ (by simp)) hl hload
    hnums hlava hid hap figs disk' hfull
  have hr : rs.map (·.rate) = [0, 1] := by
    have := hrates.symm.trans ex_rates
    exact Except.ok.inj this
  have hdone' : ∀ x ∈ rs, RateDone [1] 3 round (milliFormat windows) (stillConfig 3 3 (.int 1)) "example" "still.json" "out" "slope.txt"
      (milliDisk 3) disk' x := by
    rw [← hcast]; exact hdone
  exact ⟨figs, disk', rs, hfull, hcurves, hr, hdone'⟩

/-- **C92**, non-vacuity: a sweep over the rates 0 and 1, three lines in each result, on both platforms, is complete and has all the
    properties claimed; its two curves are labelled by the rates. -/
example (windows : Bool) (round : Nat → ℝ → ℝ) :
    ∃ figs disk', sweepFullText [1] 3 round (milliFormat windows) milliText "still.json" "out" "slope.txt" 0 1 1 (milliDisk 3) =
        some (.ok figs, disk') ∧ figs.curves.map (·.1) = ["example_0m3s".toList, "example_1m3s".toList] ∧
      ∃ rs : List RateResult, rs.map (·.rate) = [0, 1] ∧
        ∀ x ∈ rs, RateDone [1] 3 round (milliFormat windows) (stillConfig 3 3 (.int 1)) "example" "still.json" "out" "slope.txt" (milliDisk 3) disk' x := by
  obtain ⟨figs, disk', rs, hfull, hcurves, hr, hdone'⟩ := milli_full windows round
  refine ⟨figs, disk', hfull, ?_, rs, hr, hdone'⟩
  rw [hcurves, List.map_map]
  have : rs.map ((·.1) ∘ fun x : RateResult => (x.label, x.curves)) =
      (rs.map (·.rate)).map fun r => plotLabel "out" (resultFileName "out" "example" (toString r)) := by
    have hlab : ∀ x ∈ rs, x.label = plotLabel "out" (resultFileName "out" "example" (toString x.rate)) := fun x hx => (hdone' x hx).label
    clear hr hdone' hcurves hfull
    induction rs with
    | nil => rfl
    | cons x rs ih =>
      rw [List.map_cons, List.map_cons, List.map_cons, ih fun y hy => hlab y (List.mem_cons_of_mem _ hy)]
      exact congrArg (· :: _) (hlab x (by simp))
  rw [this, hr]
  have lab : ∀ r : Int, plotLabel "out" (resultFileName "out" "example" (toString r)) = ("example" ++ "_" ++ toString r ++ "m3s").toList := by
    intro r
    refine C91_label_of_a_result _ _ _ (label_safe _ _ (by decide) ?_)
    simp only [String.toList_append, List.mem_append, not_or]
    exact ⟨⟨⟨by decide, by decide⟩, int_no_slash r⟩, by decide⟩
  rw [List.map_cons, List.map_cons, List.map_nil, lab, lab]
  decide

end PyFlowGo
