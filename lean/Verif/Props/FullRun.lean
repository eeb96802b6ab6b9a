import Verif.Proofs.FullRunLemmas
import Verif.Props.Wiring
/-
  C03, C04, C53, C55 on complete runs, from the configuration file to the result file.
-/
namespace PyFlowGo
open Spec

/-- A process with two configuration files: "dry.json" selects no flux at all and starts at 0 m, "rain.json"
    selects the rain flux and starts at 5 m. -/
noncomputable def exProc : Proc ℝ :=
  { json := [("dry.json", exConfigR (.num 0) (exNum 0 1) (exChoiceRain "no" "basic")),
             ("rain.json", exConfigR (.num 0) (exNum 5 6) (exChoiceRain "yes" "basic"))]
    results := [], log := [] }

theorem exCryst {extra : List (String × Json ℝ)} (rate : Json ℝ) (pos len : ℝ) (rain : String) :
    CrystFrom exEnv (exConfigM extra rate (exNum pos len) (exChoiceRain rain "basic")) "basic" (.basic 0 1 0 1000) := by
  have N := exNumber (extra := extra) rate pos len (exChoiceRain rain "basic")
  exact ⟨_, _, _, _, N ("lava_state", "crystal_fraction") (by decide),
    N ("crystals_parameters", "crystals_grown_during_cooling") (by decide),
    N ("crystals_parameters", "solid_temperature") (by decide),
    N ("eruption_condition", "eruption_temperature") (by decide), rfl⟩

theorem exPrepare_dry (log : Log (Cell ℝ)) :
    prepare exEnv (exConfigR (.num 0) (exNum 0 1) (exChoiceRain "no" "basic")) log =
      .ok (exPrepared (.num 0) 0 0 1 (exModelsOf (.basic 0 1 0 1000) []) log) :=
  exPrepare (.num 0) 0 0 1 rfl "no" "basic" _ _ (exCryst (.num 0) 0 1 "no") (Or.inr ⟨rfl, rfl⟩) log

theorem exPrepare_rain (log : Log (Cell ℝ)) :
    prepare exEnv (exConfigR (.num 0) (exNum 5 6) (exChoiceRain "yes" "basic")) log =
      .ok (exPrepared (.num 0) 0 5 6 (exModelsOf (.basic 0 1 0 1000) [.rain (1 / 100) 1 1]) log) :=
  exPrepare (.num 0) 0 5 6 rfl "yes" "basic" _ _ (exCryst (.num 0) 5 6 "yes") (Or.inl ⟨rfl, _, rfl, rfl⟩) log

theorem rainEntries_shape (log : Log (Cell ℝ)) (es : List (String × Cell ℝ)) (hes : ∀ e ∈ es, e.1 ≠ "position")
    (hne : es ≠ []) (p : ℝ) (hlog : ∀ r ∈ log, r.atPosition (.num p) = false) :
    log.addAll (.num p) es = log ++ [Row.setAll [("position", .num p)] es] := by
  cases es with
  | nil => exact absurd rfl hne
  | cons e rest =>
    have h1 : log.addVariable e.1 (.num p) e.2 = log ++ [newRow e.1 (.num p) e.2] := by
      rcases addVariable_shape log e.1 (.num p) e.2 with ⟨pre, r, post, h2, h3, _, _⟩ | ⟨_, h3⟩
      · rw [hlog r (by rw [h2]; simp)] at h3; cases h3
      · exact h3
    have h2 : log.addAll (.num p) (e :: rest) = Log.addAll (log ++ newRow e.1 (.num p) e.2 :: []) (.num p) rest := by
      show Log.addAll (log.addVariable e.1 (.num p) e.2) (.num p) rest = _
      rw [h1]
    rw [h2, addAll_hit rest (fun x hx => hes x (by simp [hx])) log [] _ _ ?_ hlog]
    · rfl
    · have hp : e.1 ≠ "position" := hes e (by simp)
      unfold newRow Row.atPosition
      rw [Row.get?_set, if_neg (fun h => hp h.symm)]
      simp [Row.get?]

/-- The log after the dry run on an empty log. -/
def dryLog : Log (Cell ℝ) := [[("position", .num 0), ("heat_budget", .num 0)]]

theorem dry_addAll : Log.addAll ([] : Log (Cell ℝ)) (.num 0) [("heat_budget", .num 0)] = dryLog := by
  simp [Log.addAll, Log.addVariable, newRow, Row.set, dryLog]

/-- "dry.json" on a fresh runner: the call ends normally and writes a file. -/
theorem exDry_runs (grid : List ℝ) (folder : String) : ∃ t,
    runOn grid 1 exEnv "dry.json" folder (newRunner exProc) = some (.ok (),
      { exProc with log := dryLog, results := [(resultFileName folder "example" "x", t)] }) ∧ t.rows.length = 1 := by
  obtain ⟨w, h1, h2⟩ := exDryRun (.num 0) 0 0 1 [] grid (Or.inl rfl)
  rw [dry_addAll] at h2
  have hw : writeValues w.log = .ok (some ⟨["position", "heat_budget"], [[some (.num 0), some (.num 0)]]⟩) := by
    rw [h2]; rfl
  refine ⟨⟨["position", "heat_budget"], [[some (.num 0), some (.num 0)]]⟩, ?_, rfl⟩
  have := (runOn_of (p := newRunner exProc) (jsonFile := "dry.json") (folder := folder) rfl (exPrepare_dry []) h1).1 _ hw
  rw [this, h2]
  rfl

/-- The log of the rain run: the old rows and a new one, which has a column the dry run does not have. -/
theorem exRain_log (grid : List ℝ) (log : Log (Cell ℝ)) (hlog : ∀ r ∈ log, r.atPosition (.num 5) = false) : ∃ w r,
    simulateOn grid 1 (exPrepared (.num 0) 0 5 6 (exModelsOf (.basic 0 1 0 1000) [.rain (1 / 100) 1 1]) log).integrator
        (exPrepared (.num 0) 0 5 6 (exModelsOf (.basic 0 1 0 1000) [.rain (1 / 100) 1 1]) log).world = some (.ok (), w) ∧
      w.log = log ++ [r] ∧ "viscosity" ∈ r.keys := by
  obtain ⟨w, h1, es, h2, h3, h4⟩ := exRainRun (.num 0) 0 5 6 log (by norm_num) grid (Or.inl rfl)
  have hne : es ≠ [] := by
    intro h; rw [h] at h3; simp at h3
  refine ⟨w, _, h1, by rw [h4, rainEntries_shape log es h2 hne 5 hlog], ?_⟩
  rw [Row.mem_keys_setAll, h3]
  right
  decide

/-- "rain.json" on a fresh runner: the call ends normally and writes a file with one line. -/
theorem exRain_runs (grid : List ℝ) (folder : String) : ∃ p' t,
    runOn grid 1 exEnv "rain.json" folder (newRunner exProc) = some (.ok (), p') ∧
      p'.results = [(resultFileName folder "example" "x", t)] ∧ t.rows.length = 1 := by
  obtain ⟨w, r, h1, h2, _⟩ := exRain_log grid [] (by simp)
  obtain ⟨p', h5, h6, h7, _, h8⟩ := C04_run_writes (fun c => beq_self_eq_true c) grid 1 exEnv "rain.json" folder exProc _ _ w rfl
    (exPrepare_rain []) h1
  obtain ⟨t, h9, h10, _⟩ := h8 (by rw [h2]; simp)
  exact ⟨p', t, h5, h9, by rw [h10, h2]; rfl⟩

/-- **C03/C04** (why a fresh runner is needed). Two configurations that each run and write their result on a
    fresh runner: run one after the other on the same runner, the second call raises ValueError and writes no
    file, because the log still begins with the columns of the first. -/
theorem C03_reuse_can_fail (grid : List ℝ) (folder : String) :
    ∃ p1 p2 p3, runOn grid 1 exEnv "dry.json" folder (newRunner exProc) = some (.ok (), p1) ∧
      runOn grid 1 exEnv "rain.json" folder (newRunner exProc) = some (.ok (), p2) ∧ p2.results ≠ [] ∧
      runOn grid 1 exEnv "rain.json" folder p1 = some (.error .valueError, p3) ∧ p3.results = p1.results := by
  obtain ⟨t, h1, _⟩ := exDry_runs grid folder
  obtain ⟨p2, t2, h2, h3, _⟩ := exRain_runs grid folder
  obtain ⟨w, r, h4, h5, h6⟩ := exRain_log grid dryLog (by
    intro r hr
    simp only [dryLog, List.mem_singleton] at hr
    rw [hr, Bool.eq_false_iff]
    simp [Row.atPosition, Row.get?])
  have hw : writeValues w.log = .error .valueError := by
    have hk : csvRow ["position", "heat_budget"] r = .error .valueError := by
      unfold csvRow
      rw [if_neg]
      rw [List.all_eq_true]
      intro h
      have := h _ h6
      revert this
      decide
    rw [h5]
    show (do let rows ← List.mapM (csvRow ["position", "heat_budget"]) (dryLog ++ [r])
             return some (CsvTable.mk ["position", "heat_budget"] rows)) = Except.error Err.valueError
    rw [List.mapM_append]
    simp only [dryLog, List.mapM_cons, List.mapM_nil, hk]
    rfl
  have h7 := (runOn_of (p := { exProc with log := dryLog, results := [(resultFileName folder "example" "x", t)] })
      (jsonFile := "rain.json") (folder := folder) rfl (exPrepare_rain dryLog) h4).2 _ hw
  exact ⟨_, p2, _, h1, h2, by rw [h3]; simp, h7, rfl⟩

/-- **C55**, **C03**, **C04**: hypotheses met by a complete run from the configuration file to the result file. -/
example : ∃ p' t, runOn depthGrid 1 exEnv "rain.json" "out" (newRunner exProc) = some (.ok (), p') ∧
    p'.results = [("out/results_flowgo_example_xm3s.csv", t)] ∧ t.rows.length = 1 := exRain_runs depthGrid "out"

/-- **C53**, a complete case: the selection "melts" with the rain flux builds, prepares, starts to flow, and the
    first step raises ZeroDivisionError. -/
theorem exMelts_fails (log : Log (Cell ℝ)) : ∃ pr w1,
    prepare exEnv (exConfigR (.num 0) (exNum 0 1) (exChoiceRain "yes" "melts")) log = .ok pr ∧
      singleStep pr.integrator pr.world = (.error .zeroDiv, w1) := by
  have N := exNumber (extra := []) (.num 0) 0 1 (exChoiceRain "yes" "melts")
  have hm : CrystFrom exEnv (exConfigR (.num 0) (exNum 0 1) (exChoiceRain "yes" "melts")) "melts" (.melts 0 0 none) :=
    ⟨_, _, _, N ("lava_state", "crystal_fraction") (by decide),
      N ("crystals_parameters", "solid_temperature") (by decide),
      N ("eruption_condition", "eruption_temperature") (by decide), ⟨_, _, rfl, rfl⟩, rfl⟩
  have hp := exPrepare (.num 0) 0 0 1 rfl "yes" "melts" _ [.rain (1 / 100) 1 1] hm (Or.inl ⟨rfl, _, rfl, rfl⟩) log
  obtain ⟨w1, hheat⟩ := rain_budget (exModelsOf (.melts 0 0 none) [.rain (1 / 100) 1 1]) (1 / 100) 1 1 1 1
    { newWorld (exTerrainOf 0 1) { crystal := 0, temp := 1000, pos := 0, time := 1, strain := 3 * 0 } log with
      st := { crystal := 0, temp := 1000, pos := 0, time := 1, strain := 3 }, effusionRate :=
      (newWorld (exTerrainOf 0 1) { crystal := 0, temp := 1000, pos := 0, time := 1, strain := 3 * 0 } log).stepEffusion 1 } rfl
  refine ⟨_, w1, hp, ?_⟩
  exact C53_melts_divides_by_zero exEnv _ _ (exModels_from (.num 0) 0 1 "yes" "melts" _ _ hm (Or.inl ⟨rfl, _, rfl, rfl⟩))
    (exChoiceRain "yes" "melts") (exConfig_selects _ _) rfl _ rfl _ w1 1 3 1 (Real.pi / 2) _
    (exVel 0 1 _ rfl rfl) one_pos (exWidth 0 1 _ rfl rfl) (exTerrainOf_slope _ _ _) hheat

end PyFlowGo
