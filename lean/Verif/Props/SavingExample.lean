import Verif.Props.Saving
import Verif.Props.ScheduleExamples
/-
  C111 on an example: while the configuration for 1 m³/s is run, or swept, the one for 0 m³/s is saved in its place.
-/
set_option linter.unusedSectionVars false
namespace PyFlowGo
open Spec

theorem still_object (n : ℕ) (r : Int) : ∃ l, stillConfig 3 n (.int r) = .obj l := ⟨_, rfl⟩

theorem milli_new_nums (n : ℕ) : NumsAll (Readable milliFloat milliText) (stillConfig 3 n (.int 0)) :=
  still_nums (Readable milliFloat milliText) (stillNum 3 n) (fun a b => milli_readable _ (still_milli n a b)) stillChoice 0

theorem milli_new_text (n : ℕ) : JsonText milliFloat (universal (jsonDump milliText (stillConfig 3 n (.int 0)))) (stillConfig 3 n (.int 0)) := by
  have := C79_round_trip milliFloat milliText (stillConfig 3 n (.int 0)) (still_distinct _ _ _) (milli_new_nums n) false
  simp only [stored, Bool.false_eq_true, if_false] at this
  exact (jsonLoads_iff _ _ _).mp this

theorem milli_which (windows : Bool) (n : ℕ) (data : Json ℝ)
    (h : data = stillConfig 3 n (.int 0) ∨ Holds (milliFormat windows) (milliDisk n) "still.json" data) : ∃ r : Int, data = stillConfig 3 n (.int r) ∧ (r = 0 ∨ r = 1) := by
  rcases h with h | h
  · exact ⟨0, h, Or.inl rfl⟩
  · exact ⟨1, milliDisk_holds_only windows n data h, Or.inr rfl⟩

/-- **C111**, non-vacuity: the run. -/
example (windows : Bool) (n : ℕ) (flush : List Char → List Nat) (σ : List Nat) (r : Option (Except Err (List String)))
    (hr : ((⟨[Job.prog (milliMachine windows n flush) (.run "still.json" "solo"), saveProg flush "still.json" (jsonDump milliText (stillConfig 3 n (.int 0)))], milliDisk n⟩ : Sys _).exec σ).procs[0]? = some (.ret r)) :
    let s := (⟨[Job.prog (milliMachine windows n flush) (.run "still.json" "solo"), saveProg flush "still.json" (jsonDump milliText (stillConfig 3 n (.int 0)))], milliDisk n⟩ : Sys _).exec σ
    (r = some (.error .valueError) ∧ SameBut "still.json" s.disk (milliDisk n)) ∨
    ∃ k, let before := alone (Job.prog (milliMachine windows n flush) (.run "still.json" "solo")) (milliDisk n) k
      let after := before.1.run (writeFile before.2 "still.json" (jsonDump milliText (stillConfig 3 n (.int 0))))
      r = after.1 ∧ SameBut "still.json" s.disk after.2 := by
  obtain ⟨l, hl⟩ := still_object n 0
  refine C111_saved_during_a_run (milliMachine windows n flush) "still.json" "solo" (milliDisk n) _ l (hl ▸ milli_new_text n) ?_ σ r hr
  intro data h
  rw [← hl] at h
  obtain ⟨a, rfl, ha⟩ := milli_which windows n data h
  refine ⟨fun path hp => ?_, fun rate lava hra hla => ?_⟩
  · show path ≠ "still.json"
    rcases still_mayRead n a path hp with rfl | rfl <;> decide
  · rw [still_rate n a rate hra, still_lava n a lava hla]
    simp only [Json.show]
    show resultFileName "solo" "example" (toString a) ≠ "still.json"
    rcases ha with rfl | rfl <;> decide

/-- **C111**, non-vacuity: the sweep. -/
example (windows : Bool) (n : ℕ) (flush : List Char → List Nat) (σ : List Nat) (r : Option (Except Err (List String)))
    (hr : ((⟨[Job.prog (milliMachine windows n flush) (.sweep "still.json" "out" 0 1 1), saveProg flush "still.json" (jsonDump milliText (stillConfig 3 n (.int 0)))], milliDisk n⟩ : Sys _).exec σ).procs[0]? = some (.ret r)) :
    r = some (.error .valueError) ∨ ∃ d0, (d0 = milliDisk n ∨ d0 = writeFile (milliDisk n) "still.json" (jsonDump milliText (stillConfig 3 n (.int 0)))) ∧
      r = (sweepText [1] n (milliFormat windows) milliText "still.json" "out" 0 1 1 d0).map Prod.fst := by
  obtain ⟨l, hl⟩ := still_object n 0
  have h := C111_saved_during_a_sweep (milliMachine windows n flush) "still.json" "out" 0 1 1 (milliDisk n) _ l (hl ▸ milli_new_text n) ?_ σ r hr
  · exact h.imp (fun h => h.1) fun ⟨d0, h1, h2, _⟩ => ⟨d0, h1, h2⟩
  intro data h
  rw [← hl] at h
  obtain ⟨a, rfl, ha⟩ := milli_which windows n data h
  refine ⟨⟨fun path hp => ?_, ?_, fun rate lava hla => ?_⟩, ?_⟩
  · show path ≠ "still.json"
    rcases still_mayRead n a path hp with rfl | rfl <;> decide
  · show workingFile "still.json" "out" ≠ "still.json"
    rw [still_work]
    decide
  · rw [still_lava n a lava hla]
    exact (out_result_ne _ "still.json" (by decide)).symm
  · exact still_nums (Readable milliFloat milliText) (stillNum 3 n) (fun a b => milli_readable _ (still_milli n a b)) stillChoice a

end PyFlowGo
