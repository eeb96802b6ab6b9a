import Verif.Props.SweepRange
import Verif.Props.SweepTextExample
/-
  C138 on an example: a sweep over the rates 0 and 1 from a template with the rate 1, and a sweep over the rate 1 alone from a template with the rate 0.
-/
set_option linter.unusedSectionVars false
namespace PyFlowGo
open Spec

/-- The disk of the example with the rate 0 in the template. -/
noncomputable def milliDisk0 (n : ℕ) : List (String × List Char) := [("still.json", jsonDump milliText (stillConfig 3 n (.int 0))), ("slope.txt", milliProfile)]

theorem one_rate : sweepRates 1 1 1 = .ok [1] := by decide

theorem still_json (windows : Bool) (n : ℕ) (r : Int) :
    jsonLoad (milliFormat windows).float (jsonDump milliText (stillConfig 3 n (.int r))) = .ok (stillConfig 3 n (.int r)) := by
  have := C79_round_trip milliFloat milliText (stillConfig 3 n (.int r)) (still_distinct _ _ _)
    (still_nums _ _ (fun a b => milli_readable _ (still_milli n a b)) _ _) false
  simp only [stored, Bool.false_eq_true, if_false] at this
  exact this

/-- The sweep over the rate 1 alone. -/
theorem milli_sweep_one (windows : Bool) (n : Nat) (hn1 : 1 ≤ n) (hn3 : n ≤ 3) :
    ∃ out disk', sweepText [1] n (milliFormat windows) milliText "still.json" "out" 1 1 1 (milliDisk0 n) =
      some (.ok ["out/results_flowgo_example_1m3s.csv"], ("out/results_flowgo_example_1m3s.csv", out) :: disk') := by
  have hl : lookup (milliDisk0 n) ((milliFormat windows).canon "still.json") = some (jsonDump milliText (stillConfig 3 n (.int 0))) := by
    show lookup (milliDisk0 n) "still.json" = _
    unfold milliDisk0; rw [lookup_cons_eq, if_pos rfl]
  have hslope : lookup (milliDisk0 n) "slope.txt" = some milliProfile := by
    unfold milliDisk0; rw [lookup_cons_eq, if_neg (by simp), lookup_cons_eq, if_pos rfl]
  have hwork : workingFile "still.json" "out" = "out/still.json" := by decide
  have hname : ∀ r : Int, ∀ d, (stillConfig 3 n (.int r)).get "lava_name" = .ok (.str "example") ∧
      (Json.str "example" : Json ℝ).show (textEnv (milliFormat windows) d) = "example" := fun r d => ⟨rfl, rfl⟩
  unfold sweepText
  rw [hl]
  dsimp only
  rw [still_json]
  dsimp only
  rw [one_rate]
  dsimp only
  rw [hwork]
  unfold sweepTextLoop
  rw [show (stillConfig 3 n (.int 0)).set "effusion_rate_init" (.int 1) = .ok (stillConfig 3 n (.int 1)) from rfl]
  dsimp only
  obtain ⟨log0, t0, hlog0, ht0, h0⟩ := milli_run_table windows n hn1 hn3 1 (Or.inr rfl) "out/still.json" "out"
    (writeFile (milliDisk0 n) ((milliFormat windows).canon "out/still.json")
      (stored (milliFormat windows).windows (jsonDump milliText (stillConfig 3 n (.int 1)))))
    (by rw [writeFile, lookup_cons_eq, if_neg (by show "out/still.json" ≠ _; decide)]; exact hslope)
    (by rw [writeFile, lookup_cons_eq]; exact if_pos rfl)
  rw [h0]
  dsimp only
  rw [(hname 1 []).1]
  dsimp only
  rw [(hname 1 _).2]
  unfold sweepTextLoop
  have e1 : resultFileName "out" "example" (toString (1 : Int)) = "out/results_flowgo_example_1m3s.csv" := by decide
  rw [e1]
  exact ⟨_, _, rfl⟩

/-- Both sweeps end normally, and leave the same result for the rate 1. -/
example (windows : Bool) (n : Nat) (hn1 : 1 ≤ n) (hn3 : n ≤ 3) : ∃ names₁ names₂ disk₁ disk₂ result,
    sweepText [1] n (milliFormat windows) milliText "still.json" "out" 0 1 1 (milliDisk n) = some (.ok names₁, disk₁) ∧
    sweepText [1] n (milliFormat windows) milliText "still.json" "out" 1 1 1 (milliDisk0 n) = some (.ok names₂, disk₂) ∧
    lookup disk₁ "out/results_flowgo_example_1m3s.csv" = some result ∧ lookup disk₂ "out/results_flowgo_example_1m3s.csv" = some result := by
  obtain ⟨disk₁, h₁⟩ := milli_sweep windows n hn1 hn3
  obtain ⟨out, disk₂, h₂⟩ := milli_sweep_one windows n hn1 hn3
  have nums : ∀ r, NumsAll (Readable (milliFormat windows).float milliText) (stillConfig 3 n (.int r)) := fun r =>
    still_nums (Readable milliFloat milliText) (stillNum 3 n) (fun a b => milli_readable _ (still_milli n a b)) stillChoice r
  have hwork : workingFile "still.json" "out" = "out/still.json" := by decide
  have hne : ∀ r, "out/still.json" ≠ resultFileName "out" "example" r := fun r => out_result_ne _ _ (by decide)
  have hlv : TopEntry (stillConfig 3 n (.int 1)) "lava_name" (.str "example") := ⟨_, rfl, rfl⟩
  have hslope1 : lookup (milliDisk n) "slope.txt" = some milliProfile := by
    unfold milliDisk; rw [lookup_cons_eq, if_neg (by simp), lookup_cons_eq, if_pos rfl]
  have hslope0 : lookup (milliDisk0 n) "slope.txt" = some milliProfile := by
    unfold milliDisk0; rw [lookup_cons_eq, if_neg (by simp), lookup_cons_eq, if_pos rfl]
  have e1 : resultFileName "out" "example" (toString (1 : Int)) = "out/results_flowgo_example_1m3s.csv" := by decide
  have hcanon : "out/results_flowgo_example_1m3s.csv" = (milliFormat windows).canon (resultFileName "out"
      ((Json.str "example" : Json ℝ).show (textEnv (milliFormat windows) (milliDisk n))) (toString (1 : Int))) := by
    have hs : (Json.str "example" : Json ℝ).show (textEnv (milliFormat windows) (milliDisk n)) = "example" := rfl
    rw [hs, e1]
    rfl
  have := C138_rate [1] n (milliFormat windows) milliText "still.json" "out" 0 1 1 1 1 1 (milliDisk n) disk₁ (milliDisk0 n) _ _ _
    (stillConfig 3 n (.int 1)) (stillConfig 3 n (.int 0))
    (by show lookup (milliDisk n) "still.json" = _; unfold milliDisk; rw [lookup_cons_eq, if_pos rfl])
    (by show lookup (milliDisk0 n) "still.json" = _; unfold milliDisk0; rw [lookup_cons_eq, if_pos rfl])
    ((jsonLoads_iff _ _ _).mp (still_json windows n 1)) ((jsonLoads_iff _ _ _).mp (still_json windows n 0)) (nums 1) (nums 0)
    (by
      intro k hk x
      have other : ∀ r : Int, TopEntry (stillConfig 3 n (.int r)) k x ↔ ∃ top, stillConfig 3 n (.int 1) = .obj top ∧ lookup (top.filter fun e => e.1 ≠ "effusion_rate_init") k = some x := by
        intro r
        unfold stillConfig exConfigR exConfigM TopEntry
        simp only [Json.obj.injEq, exists_eq_left', lookup_cons_eq, List.filter_cons]
        simp [Ne.symm hk, lookup_cons_eq]
      rw [other, other])
    (by
      intro path h
      rcases still_mayRead n 1 path h with rfl | rfl
      · show (lookup (milliDisk n) "slope.txt").map dataLines = (lookup (milliDisk0 n) "slope.txt").map dataLines
        rw [hslope1, hslope0]
      · show (lookup (milliDisk n) _).map dataLines = (lookup (milliDisk0 n) _).map dataLines
        unfold milliDisk milliDisk0
        simp only [lookup_cons_eq]
        rfl)
    (.str "example") hlv (fun path h => ⟨(milli_safe windows n path h).1, (milli_safe windows n path h).2 _ hlv⟩)
    (fun a b e => C57_names_distinct "out" "example" a b e) (fun r => by rw [hwork]; exact fun e => hne _ e.symm) _ _ h₁ h₂ 1 [0, 1] [1] ex_rates one_rate (by simp) (by simp)
    "out/results_flowgo_example_1m3s.csv" hcanon
  have hl : lookup (("out/results_flowgo_example_1m3s.csv", out) :: disk₂) "out/results_flowgo_example_1m3s.csv" = some out := by rw [lookup_cons_eq, if_pos rfl]
  refine ⟨_, _, disk₁, _, out, h₁, h₂, ?_, hl⟩
  rcases this with ⟨result, a, b⟩ | ⟨_, b⟩
  · rw [hl] at b
    rw [a, b]
  · rw [hl] at b
    have : lookup (milliDisk0 n) "out/results_flowgo_example_1m3s.csv" = none := by
      unfold milliDisk0
      simp only [lookup_cons_eq]
      simp [lookup]
    rw [this] at b
    cases b

end PyFlowGo
