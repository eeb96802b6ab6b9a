import Verif.Spec.MainSpec
import Verif.Props.FullRun
/-
  C66: the script `main_flowgo.py` and `RunFlowgo().run` compute the same result, unless `mass_conservation` is given as
  something else than true, false, 0 or 1.
-/
set_option linter.unusedSectionVars false
namespace PyFlowGo
open Spec

theorem mainMass_iff (v : Json ℝ) : massConservationOf v ≠ v.eqTrue ↔ OnlyRunnerOn v := by
  have h54 := C54_mass_conservation v
  cases v with
  | null => simp [massConservationOf, Json.truthy, Json.eqTrue, OnlyRunnerOn]
  | bool b => simp [massConservationOf, Json.truthy, Json.eqTrue, OnlyRunnerOn]
  | int n =>
    simp only [massConservationOf, Json.truthy, Json.eqTrue, OnlyRunnerOn]
    by_cases h0 : n = 0
    · subst h0; simp
    · by_cases h1 : n = 1
      · subst h1; simp
      · have a : (n != 0) = true := bne_iff_ne.mpr h0
        have b : (n == 1) = false := beq_eq_false_iff_ne.mpr h1
        rw [a, b]; simp [h0, h1]
  | num x =>
    simp only [SwitchesOn] at h54
    simp only [Json.eqTrue, OnlyRunnerOn, ne_eq]
    by_cases h1 : x = 1.0
    · have : x ≠ 0.0 := by rw [h1]; norm_num
      rw [h54.mpr this, (eqB_real _ _).mpr h1]; simp [h1]
    · have : eqB x 1.0 = false := by rw [Bool.eq_false_iff, ne_eq, eqB_real]; exact h1
      rw [this]
      simp [h54, h1]
  | str s =>
    simp only [SwitchesOn] at h54
    simp only [Json.eqTrue, OnlyRunnerOn, ne_eq, Bool.not_eq_false, h54]
  | arr l => simp [massConservationOf, Json.truthy, Json.eqTrue, OnlyRunnerOn]
  | obj l => simp [massConservationOf, Json.truthy, Json.eqTrue, OnlyRunnerOn]

/-- **C66**. The two entry points read `mass_conservation` differently exactly for a text saying "true", a number other
    than 0 and 1, a non-empty list or object; in all these cases `RunFlowgo` conserves mass and the script volume. -/
theorem C66_readings_differ (v : Json ℝ) :
    (massConservationOf v ≠ v.eqTrue ↔ OnlyRunnerOn v) ∧
    (OnlyRunnerOn v → massConservationOf v = true ∧ v.eqTrue = false) := by
  refine ⟨mainMass_iff v, fun h => ?_⟩
  have hne := (mainMass_iff v).mpr h
  have hon : SwitchesOn v := by
    cases v <;> simp only [OnlyRunnerOn, SwitchesOn] at h ⊢ <;> first | exact h | exact h.1
  have h1 := (C54_mass_conservation v).mpr hon
  refine ⟨h1, ?_⟩
  rw [h1] at hne
  cases hv : v.eqTrue with
  | true => rw [hv] at hne; exact absurd rfl hne
  | false => rfl

theorem readMain_eq (env : Env ℝ) (data : Json ℝ) (h : MassAgrees data) :
    readMainConfig env data = readRunConfig env data := by
  obtain ⟨inner, h1, h2⟩ := h
  have hget := (get_ok_iff _ _ _).mpr h1
  have hraw : rawMassConservation data = .ok ((lookup inner "mass_conservation").getD (.bool false)) := by
    unfold rawMassConservation
    rw [hget, ok_bind]
  unfold readMainConfig readRunConfig
  rw [hraw]
  simp only [hget, ok_bind]
  cases hl : lookup inner "mass_conservation" with
  | none =>
    have h3 : (Json.obj inner).has "mass_conservation" = .ok false := by
      unfold Json.has; simp [hl]
    have h4 : massConservationOf (.bool false : Json ℝ) = false := rfl
    simp only [h3, ok_bind, Bool.false_eq_true, if_false, Option.getD_none, h4]
  | some v =>
    have hv : massConservationOf v = v.eqTrue := by
      by_contra hne
      exact h2 v hl ((mainMass_iff v).mp hne)
    have h3 : (Json.obj inner).has "mass_conservation" = .ok true := by
      unfold Json.has; simp [hl]
    have h4 : (Json.obj inner).get "mass_conservation" = .ok v := by
      unfold Json.get; simp [hl]
    simp only [h3, h4, ok_bind, if_true, Option.getD_some, hv]

theorem prepareMain_eq (env : Env ℝ) (data : Json ℝ) (h : MassAgrees data) (log : Log (Cell ℝ)) :
    prepareMain env data log = prepare env data log := by
  unfold prepareMain prepare
  rw [readMain_eq env data h]

theorem inFolder_is (folder name : String) (h : name.toList.head? ≠ some '/') :
    pathJoin folder name = inFolder folder name := by
  unfold pathJoin inFolder
  rw [if_neg (by simpa using h)]
  by_cases h1 : folder = ""
  · simp [h1]
  · by_cases h2 : folder.toList.getLast? = some '/' <;> simp [h1, h2]

theorem head_prefix (a b : String) (h : a.toList ≠ []) : (a ++ b).toList.head? = a.toList.head? := by
  rw [String.toList_append]
  cases ha : a.toList with
  | nil => exact absurd ha h
  | cons c l => rfl

/-- The name of the runner's result file, spelled out. -/
theorem resultFileName_is (folder lava rate : String) : resultFileName folder lava rate =
    inFolder folder ("results_flowgo_" ++ lava ++ "_" ++ rate ++ "m3s.csv") := by
  refine inFolder_is _ _ ?_
  rw [String.append_assoc, String.append_assoc, String.append_assoc, head_prefix _ _ (by decide)]
  decide

/-- The name of the script's result file, spelled out. -/
theorem mainFileName_is (lava rate : String) : mainFileName lava rate =
    "./results_flowgo/results_main_flowgo_" ++ lava ++ "_" ++ rate ++ "m3s.csv" := by
  unfold mainFileName
  have h : pathJoin "." "results_flowgo" = "./results_flowgo" := by decide
  rw [h, inFolder_is _ _ (by
    rw [String.append_assoc, String.append_assoc, String.append_assoc, head_prefix _ _ (by decide)]; decide)]
  unfold inFolder
  rw [if_neg (by decide)]
  have h2 : "./results_flowgo/results_main_flowgo_" = "./results_flowgo" ++ "/" ++ "results_main_flowgo_" := by decide
  rw [h2]
  simp only [String.append_assoc]

/-- **C66**. Whenever `mass_conservation` means the same to both (missing, true, false, 0, 1, ...), the script
    `main_flowgo.py` and `RunFlowgo().run` on the same configuration file and disk behave alike: both go on, or both end
    in the same way (same exception or none), with the same log, and with the same table written (or none) under the
    respective file name. -/
theorem C66_same_as_runner (grid : List ℝ) (fuel : Nat) (env : Env ℝ) (file folder : String) (p : Proc ℝ) (data : Json ℝ)
    (hdata : lookup p.json (env.canon file) = some data) (hmass : MassAgrees data) :
    (runOn grid fuel env file folder (newRunner p) = none ↔ mainScriptOn grid fuel env file p = none) ∧
    ∀ r a b, runOn grid fuel env file folder (newRunner p) = some (r, a) → mainScriptOn grid fuel env file p = some b →
      b.1 = r ∧ SameResult env data folder p a b.2 := by
  unfold runOn mainScriptOn
  have hd : lookup (newRunner p).json (env.canon file) = some data := hdata
  have hlog : (newRunner p).log = [] := rfl
  have hj : (newRunner p).json = p.json := rfl
  have hr : (newRunner p).results = p.results := rfl
  simp only [hd, hdata, hlog, prepareMain_eq env data hmass]
  have entries : ∀ pr, prepare env data [] = .ok pr →
      TopEntry data "lava_name" pr.cfg.lavaName ∧ TopEntry data "effusion_rate_init" pr.cfg.rate := by
    intro pr hp
    unfold prepare at hp
    simp only [bind_ok_iff, pure_ok_iff] at hp
    obtain ⟨c, hc, t0, b1, t, b2, m, b3, pos, b4, time, b5, st, b6, rfl⟩ := hp
    rw [readRunConfig_iff] at hc
    exact ⟨hc.2.1, hc.1⟩
  cases hprep : prepare env data [] with
  | error e =>
    refine ⟨by simp, ?_⟩
    rintro r a b ha hb
    simp only [Option.some.injEq, Prod.mk.injEq] at ha hb
    subst hb
    obtain ⟨rfl, rfl⟩ := ha
    exact ⟨rfl, rfl, rfl, rfl, Or.inl ⟨rfl, rfl⟩⟩
  | ok pr =>
    dsimp only
    cases simulateOn grid fuel pr.integrator pr.world with
    | none => exact ⟨by simp, by rintro r a b ha; cases ha⟩
    | some o =>
      obtain ⟨res, w⟩ := o
      cases res with
      | error e =>
        refine ⟨by simp, ?_⟩
        rintro r a b ha hb
        simp only [Option.some.injEq, Prod.mk.injEq] at ha hb
        subst hb
        obtain ⟨rfl, rfl⟩ := ha
        exact ⟨rfl, rfl, rfl, rfl, Or.inl ⟨rfl, rfl⟩⟩
      | ok u =>
        dsimp only
        cases writeValues w.log with
        | error e =>
          refine ⟨by simp, ?_⟩
          rintro r a b ha hb
          simp only [Option.some.injEq, Prod.mk.injEq] at ha hb
          subst hb
          obtain ⟨rfl, rfl⟩ := ha
          exact ⟨rfl, rfl, rfl, rfl, Or.inl ⟨rfl, rfl⟩⟩
        | ok t =>
          cases t with
          | none =>
            refine ⟨by simp, ?_⟩
            rintro r a b ha hb
            simp only [Option.some.injEq, Prod.mk.injEq] at ha hb
            subst hb
            obtain ⟨rfl, rfl⟩ := ha
            exact ⟨rfl, rfl, rfl, rfl, Or.inl ⟨rfl, rfl⟩⟩
          | some t =>
            refine ⟨by simp, ?_⟩
            rintro r a b ha hb
            simp only [Option.some.injEq, Prod.mk.injEq] at ha hb
            subst hb
            obtain ⟨rfl, rfl⟩ := ha
            refine ⟨rfl, rfl, rfl, rfl, Or.inr ⟨t, pr.cfg.lavaName, pr.cfg.rate, (entries pr hprep).1, (entries pr hprep).2, ?_, ?_⟩⟩
            · rw [← resultFileName_is]; rfl
            · rw [← mainFileName_is]; rfl

/-! ### Witness -/

theorem readMain_of (env : Env ℝ) (data : Json ℝ) (inner : List (String × Json ℝ)) (v : Json ℝ)
    (h1 : TopEntry data "terrain_conditions" (.obj inner)) (h2 : lookup inner "mass_conservation" = some v)
    (c : RunConfig ℝ) (hc : readRunConfig env data = .ok c) :
    readMainConfig env data = .ok { c with massConservation := v.eqTrue } := by
  rw [readRunConfig_iff] at hc
  obtain ⟨a1, a2, a3, ⟨sz, a4, a5⟩, _⟩ := hc
  have hget := (get_ok_iff _ _ _).mpr h1
  have top : ∀ k x, TopEntry data k x → requireTop data k = .ok x := by
    intro k x hx
    unfold requireTop
    rw [has_true_of hx, ok_bind]
    exact (get_ok_iff _ _ _).mpr hx
  unfold readMainConfig
  rw [(get_ok_iff _ _ _).mpr a1, ok_bind, top _ _ a2, ok_bind, top _ _ a3, ok_bind, top _ _ a4, ok_bind, a5, ok_bind, hget,
    ok_bind]
  simp [Json.has, Json.get, h2]

theorem prepareMain_of (env : Env ℝ) (data : Json ℝ) (inner : List (String × Json ℝ)) (v : Json ℝ) (log : Log (Cell ℝ))
    (h1 : TopEntry data "terrain_conditions" (.obj inner)) (h2 : lookup inner "mass_conservation" = some v)
    (pr : Prepared ℝ) (hp : prepare env data log = .ok pr) :
    prepareMain env data log = .ok { pr with cfg := { pr.cfg with massConservation := v.eqTrue },
                                             integrator := { pr.integrator with massConservation := v.eqTrue } } := by
  unfold prepare at hp
  simp only [bind_ok_iff, pure_ok_iff] at hp
  obtain ⟨c, hc, t0, b1, t, b2, m, b3, pos, b4, time, b5, st, b6, rfl⟩ := hp
  unfold prepareMain
  rw [readMain_of env data inner v h1 h2 c hc, ok_bind, b1, ok_bind, b2, ok_bind, b3, ok_bind, b4, ok_bind, b5, ok_bind, b6,
    ok_bind]
  rfl

/-- The configuration "rain.json" with `"mass_conservation": "true"` (a text) added. -/
noncomputable def textMassConfig : Json ℝ :=
  exConfigM [("mass_conservation", .str "true")] (.num 0) (exNum 5 6) (exChoiceRain "yes" "basic")

theorem text_true : massConservationOf (.str "true" : Json ℝ) = true := by
  rw [C54_mass_conservation]
  exact ⟨[], ['t', 'r', 'u', 'e'], [], by decide, by decide, by decide, by decide⟩

/-- Mass mode without a prescribed effusion rate: the first moving step raises AttributeError. -/
theorem mass_first_step_fails (g : Integrator ℝ) (hm : g.massConservation = true) (w : World ℝ) (hf : w.fluxRate = none)
    (v x : ℝ) (hv : g.models.lava.meanVelocity w.terrain w.st = .ok (v, x)) (hpos : 0 < v) :
    ∃ w', singleStep g w = (.error .attributeError, w') ∧ w'.log = w.log := by
  have hle : leB v 0.0 = false := by
    rw [Bool.eq_false_iff, ne_eq, leB_real, not_le]; norm_num; exact hpos
  set w1 : World ℝ := { w with st := { w.st with strain := x } } with hw1
  set w2 : World ℝ := if w1.iteration == 0 then { w1 with effusionRate := v * w1.terrain.width * w1.terrain.depth } else w1
    with hw2
  have hf2 : w2.fluxRate = none := by
    rw [hw2]; split <;> exact hf
  have hl2 : w2.log = w.log := by
    rw [hw2]; split <;> rfl
  have hc : channelWidth g.massConservation w2.effusionRate w2.fluxRate v w2.terrain.depth (g.models.lava.density w2.st) =
      .error .attributeError := by
    unfold channelWidth; rw [hm, hf2]; rfl
  have hs : stepCompute g v w1 = (.error .attributeError, w2) := by
    unfold stepCompute setEffusionRate
    rw [PyM.bind_of_ok (PyM.modify_apply _ _), PyM.bind_of_ok (PyM.get_apply _)]
    dsimp only
    rw [← hw2]
    exact PyM.bind_of_error (by rw [hc]; rfl)
  refine ⟨w2, ?_, hl2⟩
  unfold singleStep
  rw [PyM.bind_of_ok (meanVelocityM_forward hv), hle]
  simp only [Bool.false_eq_true, if_false]
  exact PyM.bind_of_error hs

/-- **C66**, where they do differ: a file with `"mass_conservation": "true"` (a text) and no prescribed effusion rate.
    `RunFlowgo` takes it as on and raises AttributeError without writing anything; the script takes it as off, ends
    normally and writes a table with one line. -/
theorem C66_text_true_differs (grid : List ℝ) (folder : String) (p : Proc ℝ)
    (hp : lookup p.json "rain.json" = some textMassConfig) :
    (∃ a, runOn grid 1 exEnv "rain.json" folder (newRunner p) = some (.error .attributeError, a) ∧
      a.results = p.results) ∧
    (∃ b t, mainScriptOn grid 1 exEnv "rain.json" p = some (.ok (), b) ∧
      b.results = ("./results_flowgo/results_main_flowgo_example_xm3s.csv", t) :: p.results ∧ t.rows.length = 1) := by
  have hn : "./results_flowgo/results_main_flowgo_example_xm3s.csv" = mainFileName "example" "x" := by decide
  rw [hn]
  have hcr : CrystFrom exEnv textMassConfig "basic" (.basic 0 1 0 1000) :=
    exCryst (.num 0) 5 6 "yes"
  have hprep := exPrepareM [("mass_conservation", .str "true")] (.num 0) 0 5 6 rfl "yes" "basic" _ [.rain (1 / 100) 1 1]
    hcr (Or.inl ⟨rfl, _, rfl, rfl⟩) []
  have hmass : massConservationOf ((lookup [("mass_conservation", (.str "true" : Json ℝ))] "mass_conservation").getD
      (.bool false)) = true := text_true
  rw [hmass] at hprep
  constructor
  · obtain ⟨w', h1, h2⟩ := mass_first_step_fails (exPreparedM true (.num 0) 0 5 6
      (exModelsOf (.basic 0 1 0 1000) [.rain (1 / 100) 1 1]) []).integrator rfl
      (exPreparedM true (.num 0) 0 5 6 (exModelsOf (.basic 0 1 0 1000) [.rain (1 / 100) 1 1]) []).world rfl 1 3
      (exVel 0 6 _ rfl rfl) one_pos
    have hsim : simulateOn grid 1 (exPreparedM true (.num 0) 0 5 6
      (exModelsOf (.basic 0 1 0 1000) [.rain (1 / 100) 1 1]) []).integrator
      (exPreparedM true (.num 0) 0 5 6 (exModelsOf (.basic 0 1 0 1000) [.rain (1 / 100) 1 1]) []).world =
        some (.error .attributeError, w') := by
      rw [simulate_noSearch]
      · unfold runLoop
        rw [h1]
        rfl
      · rw [eqB_real]; show (0 : ℝ) = 0.0; norm_num
    refine ⟨{ newRunner p with log := w'.log }, ?_, rfl⟩
    have hd : lookup (newRunner p).json (exEnv.canon "rain.json") = some textMassConfig := hp
    unfold runOn
    rw [hd]; dsimp only
    have : prepare exEnv textMassConfig (newRunner p).log = _ := hprep
    rw [this]; dsimp only; rw [hsim]
  · have hmain := prepareMain_of exEnv textMassConfig _ (.str "true") [] ⟨_, rfl, rfl⟩ rfl _ hprep
    obtain ⟨w, r, h1, h2, _⟩ := exRain_log grid [] (by simp)
    obtain ⟨t, ht, hnone⟩ := C04_write_never_fails (fun c => beq_self_eq_true c) grid 1 _ _ w rfl h1
    cases t with
    | none =>
      have := hnone.mp rfl
      rw [h2] at this
      simp at this
    | some t =>
      refine ⟨{ p with log := w.log, results := (mainFileName "example" "x", t) :: p.results }, t, ?_, rfl, ?_⟩
      · have hd : lookup p.json (exEnv.canon "rain.json") = some textMassConfig := hp
        unfold mainScriptOn
        rw [hd]; dsimp only
        rw [hmain]; dsimp only
        have hsim : simulateOn grid 1 _ _ = some (.ok (), w) := h1
        have he : (Json.str "true" : Json ℝ).eqTrue = false := rfl
        rw [he]
        have hsim' : simulateOn grid 1 { (exPreparedM true (.num 0) 0 5 6
            (exModelsOf (.basic 0 1 0 1000) [.rain (1 / 100) 1 1]) []).integrator with massConservation := false }
            (exPreparedM true (.num 0) 0 5 6 (exModelsOf (.basic 0 1 0 1000) [.rain (1 / 100) 1 1]) []).world =
            some (.ok (), w) := h1
        rw [hsim']; dsimp only; rw [ht]; rfl
      · rw [(C01_csv_rows_are_the_log _ _ ht).1, h2]; rfl

/-- The disk of the witness exists; and the plain example files satisfy the hypotheses of `C66_same_as_runner`. -/
example : ∃ p : Proc ℝ, lookup p.json "rain.json" = some textMassConfig :=
  ⟨{ exProc with json := [("rain.json", textMassConfig)] }, rfl⟩

example : MassAgrees (exConfigM [("mass_conservation", .bool true)] (.num 0) (exNum 5 6) (exChoiceRain "yes" "basic")) ∧
    MassAgrees (exConfigR (.num 0) (exNum 5 6) (exChoiceRain "yes" "basic")) ∧ ¬ MassAgrees textMassConfig := by
  refine ⟨⟨_, ⟨_, rfl, rfl⟩, ?_⟩, ⟨_, ⟨_, rfl, rfl⟩, ?_⟩, ?_⟩
  · intro v hv h
    have : v = .bool true := (Option.some.inj hv).symm
    rw [this] at h; exact h
  · intro v hv
    cases hv
  · rintro ⟨inner, h1, h2⟩
    obtain ⟨l, hl, h1⟩ := h1
    cases hl
    have hi := Option.some.inj h1
    injection hi with hi
    subst hi
    exact h2 (.str "true") rfl ((mainMass_iff _).mp (by rw [text_true]; simp [Json.eqTrue]))

end PyFlowGo
