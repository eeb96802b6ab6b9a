import Verif.Props.Renamed
import Verif.Props.SweepRangeExample
/-
  C139 on an example: the lava "example", and the same lava under the name "other" in another file and for another folder.
-/
set_option linter.unusedSectionVars false
namespace PyFlowGo
open Spec

/-- The configuration of the example under another name. -/
noncomputable def otherName (n : ℕ) (r : Int) : Json ℝ :=
  match (stillConfig 3 n (.int r)).set "lava_name" (.str "other") with
  | .ok d => d
  | .error _ => .null

theorem other_set (n : ℕ) (r : Int) : (stillConfig 3 n (.int r)).set "lava_name" (.str "other") = .ok (otherName n r) := rfl

theorem other_renamed (n : ℕ) (r : Int) : Renamed (stillConfig 3 n (.int r)) (otherName n r) (.str "example") (.str "other") := by
  obtain ⟨a, b⟩ := set_spec _ _ _ _ (other_set n r)
  exact ⟨fun k hk x => (b k hk x).symm, ⟨_, rfl, rfl⟩, a⟩

theorem other_json (windows w : Bool) (n : ℕ) (r : Int) :
    jsonLoad (milliFormat windows).float (stored w (jsonDump milliText (otherName n r))) = .ok (otherName n r) :=
  C79_round_trip milliFloat milliText (otherName n r) (set_distinct (other_set n r) (still_distinct _ _ _) trivial)
    (set_nums (other_set n r) (still_nums _ _ (fun a b => milli_readable _ (still_milli n a b)) _ _) trivial) w

/-- **C139**, non-vacuity: the run under the other name, from another file into another folder. -/
theorem other_run (windows w : Bool) (n : Nat) (hn1 : 1 ≤ n) (hn3 : n ≤ 3) (jsonFile folder : String) (disk : List (String × List Char))
    (hslope : lookup disk "slope.txt" = some milliProfile)
    (hno : lookup disk "resources/crust_temperature_profile.txt" = none)
    (hjson : lookup disk jsonFile = some (stored w (jsonDump milliText (otherName n 1)))) :
    ∃ out, runTextOn [1] n (milliFormat windows) "still.json" "out" (milliDisk n) = some (.ok (), ("out/results_flowgo_example_1m3s.csv", out) :: milliDisk n) ∧
      runTextOn [1] n (milliFormat windows) jsonFile folder disk = some (.ok (), (resultFileName folder "other" "1", out) :: disk) := by
  obtain ⟨out, h⟩ := milli_run windows n hn1 hn3 "out"
  have e1 : resultFileName "out" "example" "1" = "out/results_flowgo_example_1m3s.csv" := by decide
  rw [e1] at h
  have hslope1 : lookup (milliDisk n) "slope.txt" = some milliProfile := by
    unfold milliDisk; rw [lookup_cons_eq, if_neg (by simp), lookup_cons_eq, if_pos rfl]
  have hrate : TopEntry (stillConfig 3 n (.int 1)) "effusion_rate_init" (.int 1) := ⟨_, rfl, rfl⟩
  obtain ⟨o, a, b⟩ := C139_text (milliFormat windows) [1] n "still.json" jsonFile "out" folder (milliDisk n) disk _ _ (stillConfig 3 n (.int 1)) (otherName n 1) (.str "example") (.str "other") (.int 1)
    (by show lookup (milliDisk n) "still.json" = _; unfold milliDisk; rw [lookup_cons_eq, if_pos rfl]) hjson
    ((jsonLoads_iff _ _ _).mp (still_json windows n 1)) ((jsonLoads_iff _ _ _).mp (other_json windows w n 1))
    (by
      intro path hm
      rcases still_mayRead n 1 path hm with rfl | rfl
      · show (lookup (milliDisk n) "slope.txt").map dataLines = (lookup disk "slope.txt").map dataLines
        rw [hslope1, hslope]
      · show (lookup (milliDisk n) "resources/crust_temperature_profile.txt").map dataLines = (lookup disk "resources/crust_temperature_profile.txt").map dataLines
        rw [hno]
        unfold milliDisk
        simp only [lookup_cons_eq]
        rfl)
    (other_renamed n 1) hrate
  refine ⟨out, h, ?_⟩
  rw [h] at a
  obtain ⟨x, rfl, hx⟩ := Option.map_eq_some_iff.mp a.symm
  obtain ⟨res, t⟩ := x
  rw [Prod.mk.injEq] at hx
  obtain ⟨rfl, hx⟩ := hx
  have hx := List.append_cancel_right (as := Option.toList _) (cs := [("out/results_flowgo_example_1m3s.csv", out)]) (bs := milliDisk n) hx
  cases t with
  | none => cases hx
  | some t =>
    have ht : t = out := (Prod.mk.inj (List.cons.inj hx).1).2
    subst ht
    have s1 : (Json.str "other" : Json ℝ).show (textEnv (milliFormat windows) disk) = "other" := rfl
    have s2 : (Json.int 1 : Json ℝ).show (textEnv (milliFormat windows) disk) = "1" := by
      show toString (1 : Int) = "1"
      decide
    rw [s1, s2] at b
    exact b

/-- The two runs on one disk that has both configurations. -/
example (windows : Bool) (n : Nat) (hn1 : 1 ≤ n) (hn3 : n ≤ 3) (disk : List (String × List Char))
    (hdisk : disk = [("other.json", jsonDump milliText (otherName n 1)), ("slope.txt", milliProfile)]) : ∃ out,
    runTextOn [1] n (milliFormat windows) "still.json" "out" (milliDisk n) = some (.ok (), ("out/results_flowgo_example_1m3s.csv", out) :: milliDisk n) ∧
    runTextOn [1] n (milliFormat windows) "other.json" "elsewhere" disk = some (.ok (), ("elsewhere/results_flowgo_other_1m3s.csv", out) :: disk) := by
  subst hdisk
  have e1 : resultFileName "elsewhere" "other" "1" = "elsewhere/results_flowgo_other_1m3s.csv" := by decide
  rw [← e1]
  refine other_run windows false n hn1 hn3 "other.json" "elsewhere" _ ?_ ?_ ?_
  · rw [lookup_cons_eq, if_neg (by dsimp only; decide), lookup_cons_eq, if_pos rfl]
  · simp only [lookup_cons_eq]
    rfl
  · rw [lookup_cons_eq, if_pos rfl]
    rfl

/-- The disk of the second sweep. -/
noncomputable def otherDisk (n : ℕ) : List (String × List Char) := [("other.json", jsonDump milliText (otherName n 0)), ("slope.txt", milliProfile)]

/-- The sweep of the other name over the rate 1 alone, from a template with the rate 0. -/
theorem other_sweep (windows : Bool) (n : Nat) (hn1 : 1 ≤ n) (hn3 : n ≤ 3) :
    ∃ out disk', sweepText [1] n (milliFormat windows) milliText "other.json" "elsewhere" 1 1 1 (otherDisk n) =
      some (.ok ["elsewhere/results_flowgo_other_1m3s.csv"], ("elsewhere/results_flowgo_other_1m3s.csv", out) :: disk') := by
  have hl : lookup (otherDisk n) ((milliFormat windows).canon "other.json") = some (jsonDump milliText (otherName n 0)) := by
    show lookup (otherDisk n) "other.json" = _
    unfold otherDisk; rw [lookup_cons_eq, if_pos rfl]
  have hslope : lookup (otherDisk n) "slope.txt" = some milliProfile := by
    unfold otherDisk; rw [lookup_cons_eq, if_neg (by simp), lookup_cons_eq, if_pos rfl]
  have hwork : workingFile "other.json" "elsewhere" = "elsewhere/other.json" := by decide
  have hload : jsonLoad (milliFormat windows).float (jsonDump milliText (otherName n 0)) = .ok (otherName n 0) := by
    have := other_json windows false n 0
    simp only [stored, Bool.false_eq_true, if_false] at this
    exact this
  unfold sweepText
  rw [hl]
  dsimp only
  rw [hload]
  dsimp only
  rw [one_rate]
  dsimp only
  rw [hwork]
  unfold sweepTextLoop
  rw [show (otherName n 0).set "effusion_rate_init" (.int 1) = .ok (otherName n 1) from rfl]
  dsimp only
  obtain ⟨out, _, h0⟩ := other_run windows windows n hn1 hn3 "elsewhere/other.json" "elsewhere"
    (writeFile (otherDisk n) ((milliFormat windows).canon "elsewhere/other.json") (stored (milliFormat windows).windows (jsonDump milliText (otherName n 1))))
    (by rw [writeFile, lookup_cons_eq, if_neg (by show "elsewhere/other.json" ≠ _; decide)]; exact hslope)
    (by
      rw [writeFile, lookup_cons_eq, if_neg (by show "elsewhere/other.json" ≠ _; decide)]
      unfold otherDisk
      simp only [lookup_cons_eq]
      rfl)
    (by rw [writeFile, lookup_cons_eq]; exact if_pos rfl)
  rw [h0]
  dsimp only
  rw [show (otherName n 1).get "lava_name" = .ok (.str "other") from rfl]
  dsimp only
  unfold sweepTextLoop
  have e1 : resultFileName "elsewhere" "other" "1" = "elsewhere/results_flowgo_other_1m3s.csv" := by decide
  have e2 : ∀ d, (Json.str "other" : Json ℝ).show (textEnv (milliFormat windows) d) = "other" := fun _ => rfl
  have e3 : toString (1 : Int) = "1" := by decide
  rw [e2, e3, e1]
  exact ⟨_, _, rfl⟩

theorem elsewhere_result (r file : String) (h : file.toList.take 11 ≠ "elsewhere/r".toList) : file ≠ resultFileName "elsewhere" "other" r := by
  rintro rfl
  apply h
  unfold resultFileName
  rw [pathJoin_rel _ _ (by simp)]
  simp [String.toList_append]

/-- **C139**, for sweeps: both end normally, and the result of the rate 1 is the same. -/
example (windows : Bool) (n : Nat) (hn1 : 1 ≤ n) (hn3 : n ≤ 3) : ∃ names₁ names₂ disk₁ disk₂ result,
    sweepText [1] n (milliFormat windows) milliText "still.json" "out" 0 1 1 (milliDisk n) = some (.ok names₁, disk₁) ∧
    sweepText [1] n (milliFormat windows) milliText "other.json" "elsewhere" 1 1 1 (otherDisk n) = some (.ok names₂, disk₂) ∧
    lookup disk₁ "out/results_flowgo_example_1m3s.csv" = some result ∧ lookup disk₂ "elsewhere/results_flowgo_other_1m3s.csv" = some result := by
  obtain ⟨disk₁, h₁⟩ := milli_sweep windows n hn1 hn3
  obtain ⟨out, disk₂, h₂⟩ := other_sweep windows n hn1 hn3
  have nums : NumsAll (Readable (milliFormat windows).float milliText) (stillConfig 3 n (.int 1)) :=
    still_nums (Readable milliFloat milliText) (stillNum 3 n) (fun a b => milli_readable _ (still_milli n a b)) stillChoice 1
  have nums' : NumsAll (Readable (milliFormat windows).float milliText) (otherName n 0) :=
    set_nums (other_set n 0) (still_nums (Readable milliFloat milliText) (stillNum 3 n) (fun a b => milli_readable _ (still_milli n a b)) stillChoice 0) trivial
  have hwork : workingFile "still.json" "out" = "out/still.json" := by decide
  have hwork' : workingFile "other.json" "elsewhere" = "elsewhere/other.json" := by decide
  have hlv : TopEntry (stillConfig 3 n (.int 1)) "lava_name" (.str "example") := ⟨_, rfl, rfl⟩
  have hslope1 : lookup (milliDisk n) "slope.txt" = some milliProfile := by
    unfold milliDisk; rw [lookup_cons_eq, if_neg (by simp), lookup_cons_eq, if_pos rfl]
  have hslope0 : lookup (otherDisk n) "slope.txt" = some milliProfile := by
    unfold otherDisk; rw [lookup_cons_eq, if_neg (by simp), lookup_cons_eq, if_pos rfl]
  have e1 : resultFileName "out" "example" (toString (1 : Int)) = "out/results_flowgo_example_1m3s.csv" := by decide
  have e2 : resultFileName "elsewhere" "other" (toString (1 : Int)) = "elsewhere/results_flowgo_other_1m3s.csv" := by decide
  have hcanon : "out/results_flowgo_example_1m3s.csv" = (milliFormat windows).canon (resultFileName "out"
      ((Json.str "example" : Json ℝ).show (textEnv (milliFormat windows) (milliDisk n))) (toString (1 : Int))) := by
    have hs : (Json.str "example" : Json ℝ).show (textEnv (milliFormat windows) (milliDisk n)) = "example" := rfl
    rw [hs, e1]
    rfl
  have hcanon' : "elsewhere/results_flowgo_other_1m3s.csv" = (milliFormat windows).canon (resultFileName "elsewhere"
      ((Json.str "other" : Json ℝ).show (textEnv (milliFormat windows) (otherDisk n))) (toString (1 : Int))) := by
    have hs : (Json.str "other" : Json ℝ).show (textEnv (milliFormat windows) (otherDisk n)) = "other" := rfl
    rw [hs, e2]
    rfl
  have other : ∀ k, k ≠ "effusion_rate_init" → ∀ x, TopEntry (stillConfig 3 n (.int 1)) k x ↔ TopEntry (stillConfig 3 n (.int 0)) k x := by
    intro k hk x
    have other : ∀ r : Int, TopEntry (stillConfig 3 n (.int r)) k x ↔ ∃ top, stillConfig 3 n (.int 1) = .obj top ∧ lookup (top.filter fun e => e.1 ≠ "effusion_rate_init") k = some x := by
      intro r
      unfold stillConfig exConfigR exConfigM TopEntry
      simp only [Json.obj.injEq, exists_eq_left', lookup_cons_eq, List.filter_cons]
      simp [Ne.symm hk, lookup_cons_eq]
    rw [other, other]
  have hboth : ∀ k, k ≠ "effusion_rate_init" → k ≠ "lava_name" → ∀ x, TopEntry (stillConfig 3 n (.int 1)) k x ↔ TopEntry (otherName n 0) k x := by
    intro k hk hk' x
    rw [other k hk, (other_renamed n 0).others k hk']
  have hmay : ∀ path, MayRead (otherName n 0) path → path = "slope.txt" ∨ path = "resources/crust_temperature_profile.txt" := fun path h =>
    still_mayRead n 0 path ((renamed_mayRead (other_renamed n 0) path).mpr h)
  have := C139_sweep [1] n (milliFormat windows) milliText "still.json" "other.json" "out" "elsewhere" 0 1 1 1 1 1 (milliDisk n) disk₁ (otherDisk n) _ _ _
    (stillConfig 3 n (.int 1)) (otherName n 0) (.str "example") (.str "other")
    (by show lookup (milliDisk n) "still.json" = _; unfold milliDisk; rw [lookup_cons_eq, if_pos rfl])
    (by show lookup (otherDisk n) "other.json" = _; unfold otherDisk; rw [lookup_cons_eq, if_pos rfl])
    ((jsonLoads_iff _ _ _).mp (still_json windows n 1)) ((jsonLoads_iff _ _ _).mp (by
      have := other_json windows false n 0
      simp only [stored, Bool.false_eq_true, if_false] at this
      exact this)) nums nums' hboth hlv (other_renamed n 0).second
    (by
      intro path h
      rcases still_mayRead n 1 path h with rfl | rfl
      · show (lookup (milliDisk n) "slope.txt").map dataLines = (lookup (otherDisk n) "slope.txt").map dataLines
        rw [hslope1, hslope0]
      · show (lookup (milliDisk n) _).map dataLines = (lookup (otherDisk n) _).map dataLines
        unfold milliDisk otherDisk
        simp only [lookup_cons_eq]
        rfl)
    (fun path h => ⟨(milli_safe windows n path h).1, (milli_safe windows n path h).2 _ hlv⟩)
    (fun path h => by
      rw [hwork']
      show path ≠ "elsewhere/other.json" ∧ ∀ r : Int, path ≠ resultFileName "elsewhere" "other" (toString r)
      rcases hmay path h with rfl | rfl
      · exact ⟨by decide, fun r => elsewhere_result _ _ (by decide)⟩
      · exact ⟨by decide, fun r => elsewhere_result _ _ (by decide)⟩)
    (fun a b e => C57_names_distinct "out" "example" a b e) (fun a b e => C57_names_distinct "elsewhere" "other" a b e)
    (fun r => by rw [hwork]; exact fun e => out_result_ne _ "out/still.json" (by decide) e.symm)
    (fun r => by rw [hwork']; exact fun e => elsewhere_result _ "elsewhere/other.json" (by decide) e.symm)
    _ _ h₁ h₂ 1 [0, 1] [1] ex_rates one_rate (by simp) (by simp) _ _ hcanon hcanon'
  have hl : lookup (("elsewhere/results_flowgo_other_1m3s.csv", out) :: disk₂) "elsewhere/results_flowgo_other_1m3s.csv" = some out := by rw [lookup_cons_eq, if_pos rfl]
  refine ⟨_, _, disk₁, _, out, h₁, h₂, ?_, hl⟩
  rcases this with ⟨result, a, b⟩ | ⟨_, b⟩
  · rw [hl] at b
    rw [a, b]
  · rw [hl] at b
    have : lookup (otherDisk n) "elsewhere/results_flowgo_other_1m3s.csv" = none := by
      unfold otherDisk
      simp only [lookup_cons_eq]
      simp [lookup]
    rw [this] at b
    cases b

end PyFlowGo
