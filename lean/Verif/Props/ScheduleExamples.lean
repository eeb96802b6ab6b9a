import Verif.Props.Interference
import Verif.Props.Duplicates
import Verif.Props.Interrupt
import Verif.Props.SweepTextExample
/-
  C107, C108, C109 on an example: a configuration with one, two or three lines of results, on both kinds of platform, with
  any buffering.
-/
set_option linter.unusedSectionVars false
namespace PyFlowGo
open Spec

/-- The platform of the example. -/
noncomputable def milliMachine (windows : Bool) (n : ℕ) (flush : List Char → List Nat) : Machine ℝ :=
  ⟨[1], n, milliFormat windows, milliText, flush⟩

theorem milliDisk_json (windows : Bool) (n : ℕ) : lookup (milliDisk n) ((milliFormat windows).canon "still.json") =
    some (jsonDump milliText (stillConfig 3 n (.int 1))) := by
  show lookup (milliDisk n) "still.json" = _
  unfold milliDisk; rw [lookup_cons_eq, if_pos rfl]

theorem milliDisk_slope (n : ℕ) : lookup (milliDisk n) "slope.txt" = some milliProfile := by
  unfold milliDisk; rw [lookup_cons_eq, if_neg (by simp), lookup_cons_eq, if_pos rfl]

theorem milliDisk_nums (n : ℕ) : NumsAll (Readable milliFloat milliText) (stillConfig 3 n (.int 1)) :=
  still_nums (Readable milliFloat milliText) (stillNum 3 n) (fun a b => milli_readable _ (still_milli n a b)) stillChoice 1

theorem milliDisk_text (windows : Bool) (n : ℕ) :
    JsonText (milliFormat windows).float (universal (jsonDump milliText (stillConfig 3 n (.int 1)))) (stillConfig 3 n (.int 1)) := by
  have := C79_round_trip milliFloat milliText (stillConfig 3 n (.int 1)) (still_distinct _ _ _) (milliDisk_nums n) false
  simp only [stored, Bool.false_eq_true, if_false] at this
  exact (jsonLoads_iff _ _ _).mp this

theorem milliDisk_holds (windows : Bool) (n : ℕ) : Holds (milliFormat windows) (milliDisk n) "still.json" (stillConfig 3 n (.int 1)) :=
  ⟨_, milliDisk_json windows n, milliDisk_text windows n⟩

theorem milliDisk_holds_only (windows : Bool) (n : ℕ) (data : Json ℝ) (h : Holds (milliFormat windows) (milliDisk n) "still.json" data) :
    data = stillConfig 3 n (.int 1) := by
  obtain ⟨text, h1, h2⟩ := h
  rw [milliDisk_json] at h1
  obtain rfl := Option.some.inj h1
  have a := (jsonLoads_iff _ _ _).mpr h2
  have b := (jsonLoads_iff _ _ _).mpr (milliDisk_text windows n)
  rw [a] at b
  exact Except.ok.inj b

theorem still_rate (n : ℕ) (r : Int) (v : Json ℝ) (h : TopEntry (stillConfig 3 n (.int r)) "effusion_rate_init" v) : v = .int r :=
  topEntry_unique h ⟨_, rfl, rfl⟩

theorem still_work : workingFile "still.json" "out" = "out/still.json" := by decide

/-- What the run of the example touches. -/
theorem milli_run_reads (windows : Bool) (n : ℕ) (q : String) (h : RunReads (milliFormat windows) (milliDisk n) "still.json" q) :
    q = "still.json" ∨ q = "slope.txt" ∨ q = "resources/crust_temperature_profile.txt" := by
  rcases h with h | ⟨data, path, h1, h2, h3⟩
  · exact Or.inl h
  · rw [milliDisk_holds_only windows n data h1] at h2
    rw [h3]
    exact Or.inr (still_mayRead n 1 path h2)

theorem milli_run_writes (windows : Bool) (n : ℕ) (folder q : String) (h : RunWrites (milliFormat windows) (milliDisk n) "still.json" folder q) :
    q = resultFileName folder "example" "1" := by
  obtain ⟨data, rate, lava, h1, h2, h3, h4⟩ := h
  rw [milliDisk_holds_only windows n data h1] at h2 h3
  rw [h4, still_rate n 1 rate h2, still_lava n 1 lava h3]
  simp only [Json.show]
  rw [show toString (1 : Int) = "1" from by decide]
  rfl

/-- What the sweep of the example touches. -/
theorem milli_sweep_reads (windows : Bool) (n : ℕ) (q : String) (h : SweepReads (milliFormat windows) (milliDisk n) "still.json" "out" q) :
    q = "still.json" ∨ q = "out/still.json" ∨ q = "slope.txt" ∨ q = "resources/crust_temperature_profile.txt" := by
  rcases h with h | ⟨data, h1, h2⟩
  · exact Or.inl h
  · rw [milliDisk_holds_only windows n data h1] at h2
    rcases h2 with h2 | ⟨path, h2, h3⟩
    · rw [still_work] at h2
      exact Or.inr (Or.inl h2)
    · rw [h3]
      exact Or.inr (Or.inr (still_mayRead n 1 path h2))

theorem milli_sweep_writes (windows : Bool) (n : ℕ) (first last step : Int) (q : String)
    (h : SweepWrites (milliFormat windows) (milliDisk n) "still.json" "out" first last step q) :
    q = "out/still.json" ∨ ∃ r : Int, q = resultFileName "out" "example" (toString r) := by
  obtain ⟨data, rates, r, h1, _, _, h2⟩ := h
  rw [milliDisk_holds_only windows n data h1] at h2
  rcases h2 with h2 | ⟨lava, h2, h3⟩
  · rw [still_work] at h2
    exact Or.inl h2
  · rw [still_lava n 1 lava h2] at h3
    exact Or.inr ⟨r, h3⟩

theorem solo_result : resultFileName "solo" "example" "1" = "solo/results_flowgo_example_1m3s.csv" := by decide

/-- **C107**, non-vacuity: the sweep into one folder and the run into another are independent. -/
theorem milli_independent (windows : Bool) (n : ℕ) (flush : List Char → List Nat) :
    Independent ([Job.sweep "still.json" "out" 0 1 1, Job.run "still.json" "solo"].map (Job.prog (milliMachine windows n flush))) (milliDisk n) := by
  have hs := solo_result
  refine C107_separate_files (milliMachine windows n flush) _ (milliDisk n) ?_ ?_
  · intro j f a b c hm template ht
    rcases List.mem_cons.mp hm with e | hm
    · cases e
      rw [milliDisk_holds_only windows n template ht]
      exact milliDisk_nums n
    · rcases List.mem_cons.mp hm with e | hm
      · cases e
      · cases hm
  · intro i j a b hij ha hb q hw
    match i, j, ha, hb with
    | 0, 0, _, _ => exact absurd rfl hij
    | 1, 1, _, _ => exact absurd rfl hij
    | 0, 1, ha, hb =>
      obtain rfl := Option.some.inj ha
      obtain rfl := Option.some.inj hb
      have hw := milli_sweep_writes windows n _ _ _ q hw
      constructor
      · intro hr
        have hr := milli_run_reads windows n q hr
        rcases hw with rfl | ⟨r, rfl⟩
        · revert hr; decide
        · rcases hr with h | h | h <;> exact out_result_ne _ _ (by decide) h.symm
      · intro hr
        have hr := milli_run_writes windows n "solo" q hr
        rw [hs] at hr
        rcases hw with rfl | ⟨r, rfl⟩
        · revert hr; decide
        · exact out_result_ne _ _ (by decide) hr.symm
    | 1, 0, ha, hb =>
      obtain rfl := Option.some.inj ha
      obtain rfl := Option.some.inj hb
      have hw := milli_run_writes windows n "solo" q hw
      rw [hs] at hw
      subst hw
      constructor
      · intro hr
        have hr := milli_sweep_reads windows n _ hr
        revert hr; decide
      · intro hr
        rcases milli_sweep_writes windows n _ _ _ _ hr with h | ⟨r, h⟩
        · revert h; decide
        · exact out_result_ne _ _ (by decide) h
    | 0, k + 2, _, hb => cases hb
    | 1, k + 2, _, hb => cases hb
    | k + 2, _, ha, _ => cases ha

theorem milli_job {windows : Bool} {n : ℕ} {flush : List Char → List Nat} {d d' : Files} {j f : String}
    (h : runTextOn [1] n (milliFormat windows) j f d = some (.ok (), d')) :
    Job.result (milliMachine windows n flush) d (.run j f) = some (.ok [], d') := by
  show (runTextOn [1] n (milliFormat windows) j f d).map _ = _
  rw [h]
  rfl

/-- **C107**: both end under every schedule that gives them enough steps, the sweep with the names of its two results and the run
    normally. -/
example (windows : Bool) (n : ℕ) (hn1 : 1 ≤ n) (hn3 : n ≤ 3) (flush : List Char → List Nat) :
    ∃ N, ∀ σ : List Nat, N ≤ σ.count 0 → N ≤ σ.count 1 →
      ((⟨[Job.sweep "still.json" "out" 0 1 1, Job.run "still.json" "solo"].map (Job.prog (milliMachine windows n flush)), milliDisk n⟩ : Sys _).exec σ).procs =
        [.ret (some (.ok ["out/results_flowgo_example_0m3s.csv", "out/results_flowgo_example_1m3s.csv"])), .ret (some (.ok []))] := by
  obtain ⟨N0, h0⟩ := C107_everyone_ends (milliMachine windows n flush) _ (milliDisk n) (milli_independent windows n flush) 0 _ rfl
  obtain ⟨N1, h1⟩ := C107_everyone_ends (milliMachine windows n flush) _ (milliDisk n) (milli_independent windows n flush) 1 _ rfl
  obtain ⟨disk', hs⟩ := milli_sweep windows n hn1 hn3
  obtain ⟨out, hr⟩ := milli_run windows n hn1 hn3 "solo"
  have e0 : Job.result (milliMachine windows n flush) (milliDisk n) (.sweep "still.json" "out" 0 1 1) = _ := hs
  have e1 := milli_job (flush := flush) hr
  rw [e0] at h0
  rw [e1] at h1
  refine ⟨max N0 N1, fun σ a b => List.ext_getElem? fun i => ?_⟩
  match i with
  | 0 => exact h0 σ (le_trans (le_max_left _ _) a)
  | 1 => exact h1 σ (le_trans (le_max_right _ _) b)
  | k + 2 =>
    rw [List.getElem?_eq_none (by rw [exec_length]; simp)]
    rfl

/-- **C110**, non-vacuity: the run of the example in three processes at the same time, all writing the same result file. -/
example (windows : Bool) (n : ℕ) (hn1 : 1 ≤ n) (hn3 : n ≤ 3) (flush : List Char → List Nat) :
    ∃ out N, ∀ σ : List Nat, N ≤ σ.count 0 → N ≤ σ.count 1 → N ≤ σ.count 2 →
      SameFiles ((⟨List.replicate 3 (Job.prog (milliMachine windows n flush) (.run "still.json" "solo")), milliDisk n⟩ : Sys _).exec σ).disk
        (("solo/results_flowgo_example_1m3s.csv", out) :: milliDisk n) := by
  have hsafe : ∀ q, RunWrites (milliFormat windows) (milliDisk n) "still.json" "solo" q → ¬ RunReads (milliFormat windows) (milliDisk n) "still.json" q := by
    intro q hw hr
    have hw := milli_run_writes windows n "solo" q hw
    rw [solo_result] at hw
    have hr := milli_run_reads windows n q hr
    subst hw
    revert hr; decide
  obtain ⟨out, hr⟩ := milli_run windows n hn1 hn3 "solo"
  rw [solo_result] at hr
  have hsep : ∀ (i j : Nat) (a b : Job), i ≠ j → (List.replicate 3 (Job.run "still.json" "solo"))[i]? = some a →
      (List.replicate 3 (Job.run "still.json" "solo"))[j]? = some b → ∀ q, a.MayWrite (milliFormat windows) (milliDisk n) q →
      ¬ b.MayRead (milliFormat windows) (milliDisk n) q ∧ (b.MayWrite (milliFormat windows) (milliDisk n) q → a = b) := by
    intro i j a b _ ha hb q hw
    obtain rfl := List.eq_of_mem_replicate (List.mem_of_getElem? ha)
    obtain rfl := List.eq_of_mem_replicate (List.mem_of_getElem? hb)
    exact ⟨hsafe q hw, fun _ => rfl⟩
  have hN := fun i hi => (C110_outcomes (milliMachine windows n flush) (List.replicate 3 (Job.run "still.json" "solo")) (milliDisk n)
    (fun j f a b c hm => by cases List.eq_of_mem_replicate hm) hsep i _ (show _ = some (Job.run "still.json" "solo") from hi)).2
  obtain ⟨N0, h0⟩ := hN 0 rfl
  obtain ⟨N1, h1⟩ := hN 1 rfl
  obtain ⟨N2, h2⟩ := hN 2 rfl
  refine ⟨out, max N0 (max N1 N2), fun σ a b c => ?_⟩
  refine (C110_many_times (milliMachine windows n flush) "still.json" "solo" 2 (milliDisk n) hsafe σ ?_).2 _ _ (milli_job hr)
  intro i hi
  match i, hi with
  | 0, _ => exact h0 σ (le_trans (le_max_left _ _) a)
  | 1, _ => exact h1 σ (le_trans (le_trans (le_max_left _ _) (le_max_right _ _)) b)
  | 2, _ => exact h2 σ (le_trans (le_trans (le_max_right _ _) (le_max_right _ _)) c)

/-- **C108**, non-vacuity: sweeps for the rates 0 and 1 that share the folder `out`. -/
example (windows : Bool) (n : ℕ) (hn1 : 1 ≤ n) (hn3 : n ≤ 3) (flush : List Char → List Nat) :
    let sys : Sys (Option (Except Err (List String))) :=
      ⟨[Job.prog (milliMachine windows n flush) (.sweep "still.json" "out" 0 0 1), Job.prog (milliMachine windows n flush) (.sweep "still.json" "out" 1 1 1)], milliDisk n⟩
    (∃ σ, (sys.exec σ).procs = [.ret (some (.ok ["out/results_flowgo_example_0m3s.csv"])), .ret (some (.ok ["out/results_flowgo_example_1m3s.csv"]))] ∧
      lookup (sys.exec σ).disk "out/results_flowgo_example_0m3s.csv" = none) ∧
    ∃ σ out, (sys.exec σ).procs = [.ret (some (.ok ["out/results_flowgo_example_0m3s.csv"])), .ret (some (.ok ["out/results_flowgo_example_1m3s.csv"]))] ∧
      lookup (sys.exec σ).disk "out/results_flowgo_example_0m3s.csv" = some out ∧
      runTextOn [1] n (milliFormat windows) "out/still.json" "out"
          (("out/still.json", stored windows (jsonDump milliText (stillConfig 3 n (.int 1)))) :: milliDisk n) =
        some (.ok (), ("out/results_flowgo_example_1m3s.csv", out) ::
          ("out/still.json", stored windows (jsonDump milliText (stillConfig 3 n (.int 1)))) :: milliDisk n) := by
  intro sys
  obtain ⟨out, hr⟩ := milli_run_on windows n hn1 hn3 1 (Or.inr rfl) "out/still.json" "out"
    (("out/still.json", stored windows (jsonDump milliText (stillConfig 3 n (.int 1)))) :: milliDisk n)
    (by rw [lookup_cons_eq, if_neg (by simp), milliDisk_slope]) (by rw [lookup_cons_eq, if_pos rfl])
  have e0 : resultFileName "out" "example" (toString (0 : Int)) = "out/results_flowgo_example_0m3s.csv" := by decide
  have e1 : resultFileName "out" "example" (toString (1 : Int)) = "out/results_flowgo_example_1m3s.csv" := by decide
  have h := C108_two_sweeps_one_folder (milliMachine windows n flush) "still.json" "out" (milliDisk n) _ (stillConfig 3 n (.int 1))
    (stillConfig 3 n (.int 0)) (stillConfig 3 n (.int 1)) (.str "example") 0 1 (milliDisk_json windows n) (milliDisk_text windows n) (milliDisk_nums n)
    ⟨_, rfl, rfl⟩ (still_set n 0) (still_set n 1) (by rw [still_work]; show "still.json" ≠ "out/still.json"; decide)
    (fun r => resultFileName "out" "example" (toString r)) (fun r => rfl)
    (fun r path hp => by
      show resultFileName "out" "example" (toString r) ≠ path
      rcases still_mayRead n 1 path hp with rfl | rfl <;> exact (out_result_ne _ _ (by decide)).symm)
    (fun r => by
      rw [still_work]
      exact (out_result_ne _ "out/still.json" (by decide)).symm)
    out (by rw [still_work]; exact hr)
  dsimp only at h
  rw [e0, e1, still_work] at h
  rw [e1] at hr
  obtain ⟨⟨σ, a1, a2⟩, τ, b1, b2⟩ := h
  refine ⟨⟨σ, a1, ?_⟩, τ, out, b1, ?_, hr⟩
  · rw [a2]
    show lookup (("out/results_flowgo_example_1m3s.csv", out) :: ("out/still.json", _) :: milliDisk n) "out/results_flowgo_example_0m3s.csv" = none
    unfold milliDisk
    rw [lookup_cons_eq, if_neg (by simp), lookup_cons_eq, if_neg (by simp), lookup_cons_eq, if_neg (by simp), lookup_cons_eq, if_neg (by simp)]
    rfl
  · rw [b2]
    show lookup (("out/results_flowgo_example_1m3s.csv", out) :: ("out/results_flowgo_example_0m3s.csv", out) :: ("out/still.json", _) :: milliDisk n)
      "out/results_flowgo_example_0m3s.csv" = some out
    rw [lookup_cons_eq, if_neg (by simp), lookup_cons_eq, if_pos rfl]

/-- **C109**, non-vacuity: the sweep of the example, started five times, interrupted each time after a different number of steps. -/
example (windows : Bool) (n : ℕ) (hn1 : 1 ≤ n) (hn3 : n ≤ 3) (flush : List Char → List Nat) (a b c : Nat) :
    let job := Job.prog (milliMachine windows n flush) (.sweep "still.json" "out" 0 1 1)
    let e := (alone job (alone job (alone job (milliDisk n) a).2 b).2 c).2
    ∃ d' e', sweepText [1] n (milliFormat windows) milliText "still.json" "out" 0 1 1 (milliDisk n) =
        some (.ok ["out/results_flowgo_example_0m3s.csv", "out/results_flowgo_example_1m3s.csv"], d') ∧
      sweepText [1] n (milliFormat windows) milliText "still.json" "out" 0 1 1 e =
        some (.ok ["out/results_flowgo_example_0m3s.csv", "out/results_flowgo_example_1m3s.csv"], e') ∧ SameFiles e' d' := by
  intro job e
  have h := C109_sweep_again (milliMachine windows n flush) "still.json" "out" 0 1 1 (milliDisk n)
    (fun template ht => by rw [milliDisk_holds_only windows n template ht]; exact milliDisk_nums n)
    (fun q hq => by
      have hq := milli_sweep_writes windows n _ _ _ q hq
      constructor
      · show q ≠ "still.json"
        rcases hq with rfl | ⟨r, rfl⟩
        · decide
        · exact (out_result_ne _ _ (by decide)).symm
      · intro template path ht hp
        rw [milliDisk_holds_only windows n template ht] at hp
        show q ≠ path
        rcases hq with rfl | ⟨r, rfl⟩
        · rcases still_mayRead n 1 path hp with rfl | rfl <;> decide
        · rcases still_mayRead n 1 path hp with rfl | rfl <;> exact (out_result_ne _ _ (by decide)).symm)
    e (.again c (.again b (.again a .none)))
  obtain ⟨disk', hs⟩ := milli_sweep windows n hn1 hn3
  have e0 : Job.result (milliMachine windows n flush) (milliDisk n) (.sweep "still.json" "out" 0 1 1) = _ := hs
  rw [e0] at h
  rcases h with ⟨h, _⟩ | ⟨o, d', e', h1, h2, h3⟩
  · cases h
  · obtain ⟨rfl, rfl⟩ := Prod.mk.inj (Option.some.inj h1)
    exact ⟨_, e', hs, h2, h3⟩

/-- **C109**, non-vacuity: the same for the run, which is interrupted once. -/
example (windows : Bool) (n : ℕ) (hn1 : 1 ≤ n) (hn3 : n ≤ 3) (flush : List Char → List Nat) (a : Nat) :
    ∃ out e', SameFiles e' (("solo/results_flowgo_example_1m3s.csv", out) :: milliDisk n) ∧ runTextOn [1] n (milliFormat windows) "still.json" "solo"
      (alone (Job.prog (milliMachine windows n flush) (.run "still.json" "solo")) (milliDisk n) a).2 = some (.ok (), e') := by
  have h := C109_run_again (milliMachine windows n flush) "still.json" "solo" (milliDisk n)
    (fun q hw hr => by
      have hw := milli_run_writes windows n "solo" q hw
      rw [solo_result] at hw
      have hr := milli_run_reads windows n q hr
      subst hw
      revert hr; decide) _ (.again a .none)
  obtain ⟨out, hr⟩ := milli_run windows n hn1 hn3 "solo"
  rw [solo_result] at hr
  have e1 := milli_job (flush := flush) hr
  rw [e1] at h
  rcases h with ⟨h, _⟩ | ⟨o, d', e', h1, h2, h3⟩
  · cases h
  · obtain ⟨rfl, rfl⟩ := Prod.mk.inj (Option.some.inj h1)
    refine ⟨out, e', h3, ?_⟩
    obtain ⟨⟨o, d'⟩, g1, g2⟩ := Option.map_eq_some_iff.mp (show Option.map _ _ = some _ from h2)
    obtain ⟨g2, rfl⟩ := Prod.mk.inj g2
    cases o with
    | error e => cases g2
    | ok u => exact g1

/-- **C109**, non-vacuity: the hypotheses about the results of an interrupted sweep hold for the example. -/
example (windows : Bool) (n : ℕ) (flush : List Char → List Nat) (k : Nat) :
    let e := (alone (Job.prog (milliMachine windows n flush) (.sweep "still.json" "out" 0 1 1)) (milliDisk n) k).2
    ∃ m, m ≤ 2 ∧ (m = 0 → lookup e "out/results_flowgo_example_1m3s.csv" = none) := by
  intro e
  have e1 : resultFileName "out" "example" (toString (1 : Int)) = "out/results_flowgo_example_1m3s.csv" := by decide
  obtain ⟨m, h1, _, h3, _⟩ := C109_results_after_interruption (milliMachine windows n flush) "still.json" "out" 0 1 1 (milliDisk n) (stillConfig 3 n (.int 1))
    (milliDisk_holds windows n) (milliDisk_nums n) [0, 1] ex_rates (.str "example") ⟨_, rfl, rfl⟩ (fun r => resultFileName "out" "example" (toString r))
    (fun r => rfl) (fun path hp => ⟨(milli_safe windows n path hp).1, fun r => (milli_safe windows n path hp).2 _ ⟨_, rfl, rfl⟩ r⟩)
    (fun a b h => C57_names_distinct "out" "example" a b h)
    (fun r => by rw [still_work]; exact (out_result_ne _ "out/still.json" (by decide)).symm) k
  refine ⟨m, h1, ?_⟩
  rintro rfl
  have := h3 1 1 (by decide) rfl
  rw [e1] at this
  rw [this]
  unfold milliDisk
  rw [lookup_cons_eq, if_neg (by simp), lookup_cons_eq, if_neg (by simp)]
  rfl

end PyFlowGo
