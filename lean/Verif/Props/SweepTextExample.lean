import Verif.Props.SweepText
/-
  C89 on an example: two rates, two runs of up to three lines each, on both kinds of platform.
-/
set_option linter.unusedSectionVars false
namespace PyFlowGo
open Spec

theorem still_set (n : ℕ) (r : Int) :
    (stillConfig 3 n (.int 1)).set "effusion_rate_init" (.int r) = .ok (stillConfig 3 n (.int r)) := rfl

/-- A run on any disk that has the configuration for rate 0 or 1 and the slope profile of the example, with the table it writes. -/
theorem milli_run_table (windows : Bool) (n : Nat) (hn1 : 1 ≤ n) (hn3 : n ≤ 3) (r : Int) (hr : r = 0 ∨ r = 1) (jsonFile folder : String)
    (disk : List (String × List Char)) (hslope : lookup disk "slope.txt" = some milliProfile)
    (hjson : lookup disk jsonFile = some (stored windows (jsonDump milliText (stillConfig 3 n (.int r))))) :
    ∃ log t, (log.length = n ∧ (∀ r ∈ log, ∀ c, c ∈ r.keys ↔ c ∈ runColumns (flowG stillFluxes)) ∧
        ColumnIs log "position" ((List.range n).map fun i : ℕ => (i : ℝ))) ∧ writeValues log = .ok (some t) ∧
      runTextOn [1] n (milliFormat windows) jsonFile folder disk =
        some (.ok (), (resultFileName folder "example" (toString r), stored windows (t.text fun c => milliText c.value)) :: disk) := by
  have hs : (textEnv (milliFormat windows) disk).slopeFile "slope.txt" = some [⟨0, 0, 0, 0, 90⟩, ⟨0, 0, 0, 2000, 90⟩] := by
    show (lookup disk "slope.txt").bind (fun t => (slopeRows milliFloat (dataLines t)).toOption) = _
    rw [hslope, Option.bind_some, milli_profile]
    rfl
  obtain ⟨log, t, hlog, _, ht, _, _, hrun⟩ := still_run_all (textEnv (milliFormat windows) disk) hs rfl n hn1 hn3 r hr (fun _ x => x)
  have hload : jsonLoad (milliFormat windows).float (stored windows (jsonDump milliText (stillConfig 3 n (.int r)))) =
      .ok (stillConfig 3 n (.int r)) :=
    C79_round_trip milliFloat milliText (stillConfig 3 n (.int r)) (still_distinct _ _ _)
      (still_nums _ _ (fun a b => milli_readable _ (still_milli n a b)) _ _) windows
  have h1 := hrun jsonFile folder ⟨[(jsonFile, stillConfig 3 n (.int r))], [], []⟩ (by rw [lookup_cons_eq]; exact if_pos rfl)
  refine ⟨log, t, hlog, ht, ?_⟩
  unfold runTextOn
  rw [show (milliFormat windows).canon jsonFile = jsonFile from rfl, hjson]
  dsimp only
  rw [hload]
  dsimp only
  rw [h1]
  rfl

theorem milli_run_on (windows : Bool) (n : Nat) (hn1 : 1 ≤ n) (hn3 : n ≤ 3) (r : Int) (hr : r = 0 ∨ r = 1) (jsonFile folder : String)
    (disk : List (String × List Char)) (hslope : lookup disk "slope.txt" = some milliProfile)
    (hjson : lookup disk jsonFile = some (stored windows (jsonDump milliText (stillConfig 3 n (.int r))))) :
    ∃ out, runTextOn [1] n (milliFormat windows) jsonFile folder disk =
      some (.ok (), (resultFileName folder "example" (toString r), out) :: disk) := by
  obtain ⟨_, _, _, _, h⟩ := milli_run_table windows n hn1 hn3 r hr jsonFile folder disk hslope hjson
  exact ⟨_, h⟩

theorem ex_rates : sweepRates 0 1 1 = .ok [0, 1] := by decide

theorem still_lava (n : ℕ) (r : Int) (lava : Json ℝ) (h : TopEntry (stillConfig 3 n (.int r)) "lava_name" lava) : lava = .str "example" := by
  obtain ⟨top, he, hv⟩ := h
  unfold stillConfig exConfigR exConfigM at he
  rw [Json.obj.injEq] at he
  rw [← he, lookup_cons_eq, if_pos rfl] at hv
  exact (Option.some.inj hv).symm

theorem still_slope (n : ℕ) (r : Int) (v : Json ℝ) (h : TopEntry (stillConfig 3 n (.int r)) "slope_file" v) : v = .str "slope.txt" := by
  obtain ⟨top, he, hv⟩ := h
  unfold stillConfig exConfigR exConfigM at he
  rw [Json.obj.injEq] at he
  rw [← he, lookup_cons_eq, if_neg (by decide), lookup_cons_eq, if_pos rfl] at hv
  exact (Option.some.inj hv).symm

theorem still_mayRead (n : ℕ) (r : Int) (path : String) (h : MayRead (stillConfig 3 n (.int r)) path) :
    path = "slope.txt" ∨ path = "resources/crust_temperature_profile.txt" := by
  rcases h with h | ⟨h, _⟩ | h
  · left
    have := still_slope n r _ h
    rw [Json.str.injEq] at this
    exact this
  · cases still_slope n r _ h
  · exact Or.inr h

/-- Result files of the example are in the folder `out`, so they are none of the files a run reads. -/
theorem out_result (r : String) : (resultFileName "out" "example" r).toList =
    "out/results_flowgo_example_".toList ++ (r.toList ++ "m3s.csv".toList) := by
  unfold resultFileName
  rw [pathJoin_rel _ _ (by simp)]
  simp [String.toList_append]

theorem out_result_ne (r file : String) (h : file.toList.take 5 ≠ "out/r".toList) : file ≠ resultFileName "out" "example" r := by
  rintro rfl
  apply h
  rw [out_result]
  simp

/-- The log of a run of the example with `n` lines. -/
def StillLog (n : ℕ) (log : Log (Cell ℝ)) : Prop :=
  log.length = n ∧ (∀ r ∈ log, ∀ c, c ∈ r.keys ↔ c ∈ runColumns (flowG stillFluxes)) ∧
    ColumnIs log "position" ((List.range n).map fun i : ℕ => (i : ℝ))

/-- **C89**: a sweep over the rates 0 and 1 on the texts of the example, up to three lines in each result. -/
theorem milli_sweep_tables (windows : Bool) (n : Nat) (hn1 : 1 ≤ n) (hn3 : n ≤ 3) :
    ∃ log0 t0 log1 t1, StillLog n log0 ∧ writeValues log0 = .ok (some t0) ∧ StillLog n log1 ∧ writeValues log1 = .ok (some t1) ∧
      sweepText [1] n (milliFormat windows) milliText "still.json" "out" 0 1 1 (milliDisk n) =
        some (.ok ["out/results_flowgo_example_0m3s.csv", "out/results_flowgo_example_1m3s.csv"],
          ("out/results_flowgo_example_1m3s.csv", stored windows (t1.text fun c => milliText c.value)) ::
          ("out/still.json", stored windows (jsonDump milliText (stillConfig 3 n (.int 1)))) ::
          ("out/results_flowgo_example_0m3s.csv", stored windows (t0.text fun c => milliText c.value)) ::
          ("out/still.json", stored windows (jsonDump milliText (stillConfig 3 n (.int 0)))) :: milliDisk n) := by
  have hl : lookup (milliDisk n) ((milliFormat windows).canon "still.json") = some (jsonDump milliText (stillConfig 3 n (.int 1))) := by
    show lookup (milliDisk n) "still.json" = _
    unfold milliDisk; rw [lookup_cons_eq, if_pos rfl]
  have hload : jsonLoad (milliFormat windows).float (jsonDump milliText (stillConfig 3 n (.int 1))) = .ok (stillConfig 3 n (.int 1)) := by
    have := C79_round_trip milliFloat milliText (stillConfig 3 n (.int 1)) (still_distinct _ _ _)
      (still_nums _ _ (fun a b => milli_readable _ (still_milli n a b)) _ _) false
    simp only [stored, Bool.false_eq_true, if_false] at this
    exact this
  have hslope : lookup (milliDisk n) "slope.txt" = some milliProfile := by
    unfold milliDisk; rw [lookup_cons_eq, if_neg (by simp), lookup_cons_eq, if_pos rfl]
  have hwork : workingFile "still.json" "out" = "out/still.json" := by decide
  have hname : ∀ r : Int, ∀ d, (stillConfig 3 n (.int r)).get "lava_name" = .ok (.str "example") ∧
      (Json.str "example" : Json ℝ).show (textEnv (milliFormat windows) d) = "example" := fun r d => ⟨rfl, rfl⟩
  unfold sweepText
  rw [hl]
  dsimp only
  rw [hload]
  dsimp only
  rw [ex_rates]
  dsimp only
  rw [hwork]
  unfold sweepTextLoop
  rw [still_set]
  dsimp only
  obtain ⟨log0, t0, hlog0, ht0, h0⟩ := milli_run_table windows n hn1 hn3 0 (Or.inl rfl) "out/still.json" "out"
    (writeFile (milliDisk n) ((milliFormat windows).canon "out/still.json")
      (stored (milliFormat windows).windows (jsonDump milliText (stillConfig 3 n (.int 0)))))
    (by rw [writeFile, lookup_cons_eq, if_neg (by show "out/still.json" ≠ _; decide)]; exact hslope)
    (by rw [writeFile, lookup_cons_eq]; exact if_pos rfl)
  rw [h0]
  dsimp only
  rw [(hname 0 []).1]
  dsimp only
  rw [(hname 0 _).2]
  unfold sweepTextLoop
  rw [still_set]
  dsimp only
  obtain ⟨log1, t1, hlog1, ht1, h1⟩ := milli_run_table windows n hn1 hn3 1 (Or.inr rfl) "out/still.json" "out"
    (writeFile ((resultFileName "out" "example" (toString (0 : Int)), stored windows (t0.text fun c => milliText c.value)) :: writeFile (milliDisk n) ((milliFormat windows).canon "out/still.json")
      (stored (milliFormat windows).windows (jsonDump milliText (stillConfig 3 n (.int 0)))))
      ((milliFormat windows).canon "out/still.json")
      (stored (milliFormat windows).windows (jsonDump milliText (stillConfig 3 n (.int 1)))))
    (by rw [writeFile, lookup_cons_eq, if_neg (by show "out/still.json" ≠ _; decide), lookup_cons_eq,
          if_neg (fun e => out_result_ne (toString (0 : Int)) "slope.txt" (by decide) e.symm), writeFile, lookup_cons_eq,
          if_neg (by show "out/still.json" ≠ _; decide)]; exact hslope)
    (by rw [writeFile, lookup_cons_eq]; exact if_pos rfl)
  rw [h1]
  dsimp only
  rw [(hname 1 []).1]
  dsimp only
  rw [(hname 1 _).2]
  unfold sweepTextLoop
  have e0 : resultFileName "out" "example" (toString (0 : Int)) = "out/results_flowgo_example_0m3s.csv" := by decide
  have e1 : resultFileName "out" "example" (toString (1 : Int)) = "out/results_flowgo_example_1m3s.csv" := by decide
  rw [e0, e1]
  exact ⟨log0, t0, log1, t1, hlog0, ht0, hlog1, ht1, rfl⟩

theorem milli_sweep (windows : Bool) (n : Nat) (hn1 : 1 ≤ n) (hn3 : n ≤ 3) :
    ∃ disk', sweepText [1] n (milliFormat windows) milliText "still.json" "out" 0 1 1 (milliDisk n) =
      some (.ok ["out/results_flowgo_example_0m3s.csv", "out/results_flowgo_example_1m3s.csv"], disk') := by
  obtain ⟨_, _, _, _, _, _, _, _, h⟩ := milli_sweep_tables windows n hn1 hn3
  exact ⟨_, h⟩

theorem milli_safe (windows : Bool) (n : ℕ) (path : String) (h : MayRead (stillConfig 3 n (.int 1)) path) :
    (milliFormat windows).canon path ≠ (milliFormat windows).canon (workingFile "still.json" "out") ∧
      ∀ lava, TopEntry (stillConfig 3 n (.int 1)) "lava_name" lava → ∀ r : Int, (milliFormat windows).canon path ≠
        (milliFormat windows).canon (resultFileName "out" (lava.show (textEnv (milliFormat windows) (milliDisk n))) (toString r)) := by
  have hwork : workingFile "still.json" "out" = "out/still.json" := by decide
  refine ⟨?_, fun lava hlv r => ?_⟩
  · rw [hwork]
    show path ≠ "out/still.json"
    rcases still_mayRead n 1 path h with rfl | rfl <;> decide
  · rw [still_lava n 1 lava hlv]
    show path ≠ resultFileName "out" "example" (toString r)
    rcases still_mayRead n 1 path h with rfl | rfl <;> exact out_result_ne _ _ (by decide)

/-- **C89**, non-vacuity: all hypotheses hold, the sweep ends normally, and both result files are on the disk. -/
example (windows : Bool) (n : Nat) (hn1 : 1 ≤ n) (hn3 : n ≤ 3) : ∃ disk' names runs,
    sweepText [1] n (milliFormat windows) milliText "still.json" "out" 0 1 1 (milliDisk n) = some (.ok names, disk') ∧
    List.Forall₂ (StandAlone [1] n (milliFormat windows) (stillConfig 3 n (.int 1)) "out/still.json" "out" (milliDisk n)) [0, 1] runs ∧
    lookup disk' "still.json" = some (jsonDump milliText (stillConfig 3 n (.int 1))) := by
  obtain ⟨disk', h⟩ := milli_sweep windows n hn1 hn3
  have hl : lookup (milliDisk n) ((milliFormat windows).canon "still.json") = some (jsonDump milliText (stillConfig 3 n (.int 1))) := by
    show lookup (milliDisk n) "still.json" = _
    unfold milliDisk; rw [lookup_cons_eq, if_pos rfl]
  have hnums := still_nums (Readable milliFloat milliText) (stillNum 3 n) (fun a b => milli_readable _ (still_milli n a b)) stillChoice 1
  have hload : JsonText (milliFormat windows).float (universal (jsonDump milliText (stillConfig 3 n (.int 1)))) (stillConfig 3 n (.int 1)) := by
    have := C79_round_trip milliFloat milliText (stillConfig 3 n (.int 1)) (still_distinct _ _ _) hnums false
    simp only [stored, Bool.false_eq_true, if_false] at this
    exact (jsonLoads_iff _ _ _).mp this
  have hwork : workingFile "still.json" "out" = "out/still.json" := by decide
  have hne : ∀ r, "out/still.json" ≠ resultFileName "out" "example" r := fun r => out_result_ne _ _ (by decide)
  obtain ⟨rates, runs, h1, h2, _⟩ := C89_results_on_disk [1] n (milliFormat windows) milliText "still.json" "out" 0 1 1 (milliDisk n) disk' _
    (stillConfig 3 n (.int 1)) hl hload hnums (milli_safe windows n)
    (fun lava hlv a b e => by
      rw [still_lava n 1 lava hlv] at e
      exact C57_names_distinct "out" "example" a b e)
    (fun lava hlv r => by
      rw [still_lava n 1 lava hlv, hwork]
      exact fun e => hne _ e.symm) _ h
  have hr : rates = [0, 1] := by
    have := h1.symm.trans ex_rates
    cases this; rfl
  rw [hr, hwork] at h2
  refine ⟨disk', _, runs, h, h2, ?_⟩
  exact C89_template_kept [1] n (milliFormat windows) milliText "still.json" "out" 0 1 1 (milliDisk n) disk' _
    (stillConfig 3 n (.int 1)) hl hload hnums _ h (by rw [hwork]; show "still.json" ≠ "out/still.json"; decide)
    (fun lava hlv r => by
      rw [still_lava n 1 lava hlv]
      exact out_result_ne _ "still.json" (by decide))

end PyFlowGo
