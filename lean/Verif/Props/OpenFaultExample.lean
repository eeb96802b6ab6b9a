import Verif.Props.OpenFault
import Verif.Props.ScheduleExamples
/-
  C114 on the example of C107: a run and a sweep whose files cannot be opened.
-/
set_option linter.unusedSectionVars false
namespace PyFlowGo
open Spec

/-- **C114**, non-vacuity: the run of the example into a folder that does not exist. -/
example (windows : Bool) (n : ℕ) (hn1 : 1 ≤ n) (hn3 : n ≤ 3) (flush : List Char → List Nat) :
    ((Job.run "still.json" "solo").prog (milliMachine windows n flush)).runWhere (fun _ => false) (milliDisk n) =
      (.error "solo/results_flowgo_example_1m3s.csv", milliDisk n) := by
  obtain ⟨out, h⟩ := milli_run windows n hn1 hn3 "solo"
  have := (C114_run (milliMachine windows n flush) "still.json" "solo" (milliDisk n) (fun _ => false)).1 _ out h rfl
  rw [this, solo_result]

/-- **C114**, non-vacuity: the sweep of the example into a folder that does not exist. -/
example (windows : Bool) (n : ℕ) (flush : List Char → List Nat) :
    ((Job.sweep "still.json" "out" 0 1 1).prog (milliMachine windows n flush)).runWhere (fun _ => false) (milliDisk n) =
      (.error "out/still.json", milliDisk n) := by
  have := C114_sweep_working (milliMachine windows n flush) "still.json" "out" 0 1 1 (milliDisk n) (fun _ => false)
    (milliDisk_holds windows n) ex_rates (by simp) rfl
  rw [this]
  rfl

/-- **C114**, non-vacuity: the sweep of the example when the second result cannot be opened: the first result and the second
    working copy are on the disk. -/
example (windows : Bool) (n : ℕ) (hn1 : 1 ≤ n) (hn3 : n ≤ 3) (flush : List Char → List Nat) :
    ∃ e out0, ((Job.sweep "still.json" "out" 0 1 1).prog (milliMachine windows n flush)).runWhere
        (fun q => q != "out/results_flowgo_example_1m3s.csv") (milliDisk n) = (.error "out/results_flowgo_example_1m3s.csv", e) ∧
      SameFiles e (("out/still.json", stored windows (jsonDump milliText (stillConfig 3 n (.int 1)))) ::
        ("out/results_flowgo_example_0m3s.csv", out0) ::
        ("out/still.json", stored windows (jsonDump milliText (stillConfig 3 n (.int 0)))) :: milliDisk n) := by
  have hone : resultFileName "out" "example" (toString (1 : Int)) = "out/results_flowgo_example_1m3s.csv" := by decide
  have hzero : resultFileName "out" "example" (toString (0 : Int)) = "out/results_flowgo_example_0m3s.csv" := by decide
  have hslope : lookup (("out/still.json", stored windows (jsonDump milliText (stillConfig 3 n (.int 0)))) :: milliDisk n) "slope.txt" = some milliProfile := by
    rw [lookup_cons_eq, if_neg (by simp), milliDisk_slope]
  obtain ⟨out0, h0⟩ := milli_run_on windows n hn1 hn3 0 (Or.inl rfl) "out/still.json" "out"
    (("out/still.json", stored windows (jsonDump milliText (stillConfig 3 n (.int 0)))) :: milliDisk n) hslope (by rw [lookup_cons_eq, if_pos rfl])
  rw [hzero] at h0
  have hslope1 : lookup (("out/still.json", stored windows (jsonDump milliText (stillConfig 3 n (.int 1)))) ::
      ("out/results_flowgo_example_0m3s.csv", out0) ::
      ("out/still.json", stored windows (jsonDump milliText (stillConfig 3 n (.int 0)))) :: milliDisk n) "slope.txt" = some milliProfile := by
    rw [lookup_cons_eq, if_neg (by simp), lookup_cons_eq, if_neg (by simp)]; exact hslope
  obtain ⟨out1, h1⟩ := milli_run_on windows n hn1 hn3 1 (Or.inr rfl) "out/still.json" "out"
    (("out/still.json", stored windows (jsonDump milliText (stillConfig 3 n (.int 1)))) :: ("out/results_flowgo_example_0m3s.csv", out0) ::
      ("out/still.json", stored windows (jsonDump milliText (stillConfig 3 n (.int 0)))) :: milliDisk n) hslope1 (by rw [lookup_cons_eq, if_pos rfl])
  rw [hone] at h1
  have hbefore : (Job.sweep "still.json" "out" 0 0 1).result (milliMachine windows n flush) (milliDisk n) =
      some (.ok ["out/results_flowgo_example_0m3s.csv"], ("out/results_flowgo_example_0m3s.csv", out0) ::
        ("out/still.json", stored windows (jsonDump milliText (stillConfig 3 n (.int 0)))) :: milliDisk n) := by
    show sweepText [1] n (milliFormat windows) milliText "still.json" "out" 0 0 1 (milliDisk n) = _
    unfold sweepText
    rw [milliDisk_json]
    dsimp only
    have hload := (jsonLoads_iff _ _ _).mpr (milliDisk_text windows n)
    have hload : jsonLoad (milliFormat windows).float (jsonDump milliText (stillConfig 3 n (.int 1))) = .ok (stillConfig 3 n (.int 1)) := hload
    rw [hload, show sweepRates 0 0 1 = .ok [0] from by decide]
    dsimp only
    unfold sweepTextLoop
    rw [still_set, still_work]
    dsimp only
    have h0 : runTextOn [1] n (milliFormat windows) "out/still.json" "out" (writeFile (milliDisk n) ((milliFormat windows).canon "out/still.json")
      (stored (milliFormat windows).windows (jsonDump milliText (stillConfig 3 n (.int 0))))) = _ := h0
    rw [h0]
    have hget : (stillConfig 3 n (.int 0)).get "lava_name" = .ok (.str "example") := rfl
    dsimp only
    rw [hget]
    dsimp only
    have hsh : (Json.str "example" : Json ℝ).show (textEnv (milliFormat windows) (("out/results_flowgo_example_0m3s.csv", out0) ::
        ("out/still.json", stored windows (jsonDump milliText (stillConfig 3 n (.int 0)))) :: milliDisk n)) = "example" := rfl
    rw [hsh, hzero]
    rfl
  obtain ⟨data, hset, _, h⟩ := C114_sweep_result (milliMachine windows n flush) "still.json" "out" 0 1 1 (milliDisk n)
    (fun q => q != "out/results_flowgo_example_1m3s.csv") (milliDisk_holds windows n) (milliDisk_nums n) (pre := [0]) (post := []) (r := 1)
    ex_rates (by rw [still_work]; rfl) (fun r' hr' lava hlava => by
      rw [List.mem_singleton.mp hr', still_lava n 1 lava hlava]
      have hsh : (Json.str "example" : Json ℝ).show (textEnv (milliMachine windows n flush).F []) = "example" := rfl
      rw [hsh, hzero]
      show ("out/results_flowgo_example_0m3s.csv" != "out/results_flowgo_example_1m3s.csv") = true
      decide) (last' := 0) (by decide) hbefore
  have hs : (stillConfig 3 n (.int 1)).set "effusion_rate_init" (.int 1) = .ok (stillConfig 3 n (.int 1)) := still_set _ _
  have hset : (stillConfig 3 n (.int 1)).set "effusion_rate_init" (.int 1) = .ok data := hset
  rw [hs] at hset
  obtain rfl := Except.ok.inj hset
  rw [still_work] at h
  obtain ⟨e, k1, k2⟩ := h "out/results_flowgo_example_1m3s.csv" out1 h1 rfl
  exact ⟨e, out0, k1, k2⟩

/-- **C114**, non-vacuity: a lava named "a/b". -/
example : ¬ DirectlyIn "out" (resultFileName "out" "a/b" "1") ∧ DirectlyIn "out" (resultFileName "out" "a" "1") := by
  rw [C114_slash, C114_slash]
  decide

end PyFlowGo
