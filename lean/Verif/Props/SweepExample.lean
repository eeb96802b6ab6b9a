import Verif.Props.FullRun
import Verif.Props.Sweep
/-
  A complete sweep: the hypotheses of C57 and C58 are met, for every list of rates.
-/
namespace PyFlowGo
open Spec

/-- One run of the example sweep, with the single candidate depth 1 m. -/
theorem exSweep_run (p : Proc ℝ) (r : Int) (jsonFile folder : String)
    (hp : lookup p.json jsonFile = some (exConfigR (.int r) (exNum 5 6) (exChoiceRain "yes" "basic"))) :
    ∃ p', runOn [1] 1 exEnv jsonFile folder (newRunner p) = some (.ok (), p') ∧ p'.log ≠ [] := by
  have hprep := exPrepare (.int r) (PyNum.ofInt r) 5 6 rfl "yes" "basic" _ [.rain (1 / 100) 1 1]
    (exCryst (.int r) 5 6 "yes") (Or.inl ⟨rfl, _, rfl, rfl⟩) []
  obtain ⟨w, h1, es, h2, h3, h4⟩ := exRainRun (.int r) (PyNum.ofInt r) 5 6 [] (by norm_num) [1] (Or.inr rfl)
  obtain ⟨p', h5, h6, _⟩ := C04_run_writes (fun c => beq_self_eq_true c) [1] 1 exEnv jsonFile folder p _ _ w hp hprep h1
  have hne : es ≠ [] := by
    intro h; rw [h] at h3; simp at h3
  refine ⟨p', h5, ?_⟩
  rw [h6, h4, rainEntries_shape [] es h2 hne 5 (by simp)]
  simp

theorem exSweep_loop (rates : List Int) (working folder : String) (names : List String) (p : Proc ℝ) : ∃ names' p',
    sweepLoop [1] 1 exEnv (exConfigR (.num 0) (exNum 5 6) (exChoiceRain "yes" "basic")) working folder rates names p =
      some (.ok names', p') := by
  induction rates generalizing names p with
  | nil => exact ⟨_, _, rfl⟩
  | cons r rest ih =>
    have hset : (exConfigR (.num 0) (exNum 5 6) (exChoiceRain "yes" "basic")).set "effusion_rate_init" (.int r) =
        .ok (exConfigR (.int r) (exNum 5 6) (exChoiceRain "yes" "basic")) := rfl
    have hget : (exConfigR (.int r) (exNum 5 6) (exChoiceRain "yes" "basic")).get "lava_name" = .ok (.str "example") := rfl
    obtain ⟨p', h1, _⟩ := exSweep_run ({ p with
      json := (writeFile p.json (exEnv.canon working) (exConfigR (.int r) (exNum 5 6) (exChoiceRain "yes" "basic"))) })
      r working folder
      (by rw [writeFile, lookup_cons]; exact if_pos rfl)
    unfold sweepLoop
    rw [hset]
    dsimp only
    rw [h1]
    dsimp only
    rw [hget]
    exact ih _ _

/-- **C57/C58**: a sweep over the rates 0, 1, 2 of the example process ends normally. -/
theorem exSweep (folder : String) : ∃ names p',
    sweep [1] 1 exEnv "rain.json" folder 0 2 1 exProc = some (.ok names, p') :=
  exSweep_loop [0, 1, 2] (workingFile "rain.json" folder) folder [] exProc

/-- Its names, from C57. -/
example : ∃ p', sweep [1] 1 exEnv "rain.json" "out" 0 2 1 exProc = some (.ok
    ["out/results_flowgo_example_0m3s.csv", "out/results_flowgo_example_1m3s.csv",
     "out/results_flowgo_example_2m3s.csv"], p') := by
  obtain ⟨names, p', h⟩ := exSweep "out"
  obtain ⟨t, rates, lava, runs, h1, h2, h3, h4, h5, h6⟩ := C57_sweep_is_fresh_runs _ _ _ _ _ _ _ _ _ _ _ h
  have e1 : rates = [0, 1, 2] := by
    have : sweepRates 0 2 1 = .ok [0, 1, 2] := rfl
    rw [this] at h2; injection h2 with h2; exact h2.symm
  have e2 : t = exConfigR (.num 0) (exNum 5 6) (exChoiceRain "yes" "basic") := by
    have : lookup exProc.json (exEnv.canon "rain.json") = some (exConfigR (.num 0) (exNum 5 6) (exChoiceRain "yes" "basic")) := rfl
    rw [this] at h1; injection h1 with h1; exact h1.symm
  subst e1; subst e2
  have e3 : lava = .str "example" := topEntry_unique (h3 (by simp)) ⟨_, rfl, rfl⟩
  subst e3
  refine ⟨p', ?_⟩
  rw [h, h4]
  rfl

/-- **C58** (what users do not expect). In the template's own folder the sweep rewrites the template: afterwards it
    asks for the last rate of the sweep. -/
theorem C58_template_overwritten : ∃ names p' data, sweep [1] 1 exEnv "rain.json" "" 0 2 1 exProc = some (.ok names, p') ∧
    lookup p'.json "rain.json" = some data ∧ TopEntry data "effusion_rate_init" (.int 2) ∧
    lookup exProc.json "rain.json" = some (exConfigR (.num 0) (exNum 5 6) (exChoiceRain "yes" "basic")) := by
  obtain ⟨names, p', h⟩ := exSweep ""
  obtain ⟨t, rates, h1, h2, h3, h4⟩ := C58_working_copy _ _ _ _ _ _ _ _ _ _ _ h
  have e1 : rates = [0, 1, 2] := by
    have : sweepRates 0 2 1 = .ok [0, 1, 2] := rfl
    rw [this] at h2; injection h2 with h2; exact h2.symm
  subst e1
  obtain ⟨data, h5, h6⟩ := h4 2 (by simp)
  refine ⟨names, p', data, h, ?_, h6.1, rfl⟩
  have : workingFile "rain.json" "" = "rain.json" := C58_same_folder "" "rain.json" (by decide)
  rw [this] at h5
  exact h5

/-- In another folder it does not. -/
example : ∃ names p', sweep [1] 1 exEnv "rain.json" "out" 0 2 1 exProc = some (.ok names, p') ∧
    lookup p'.json "rain.json" = lookup exProc.json "rain.json" := by
  obtain ⟨names, p', h⟩ := exSweep "out"
  exact ⟨names, p', h, C58_only_the_working_copy _ _ _ _ _ _ _ _ _ _ _ h "rain.json" (by decide)⟩

end PyFlowGo
