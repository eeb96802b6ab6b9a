import Verif.Props.SupplyConfig
import Verif.Props.RelevantText
import Verif.Props.SweepFullExample
/-
  C97: examples meeting the hypotheses.
-/
set_option linter.unusedSectionVars false
namespace PyFlowGo
open Spec

/-- Example configurations that differ in the rate only have the same other entries. -/
theorem rate_top {α : Type} (extra : List (String × Json α)) (rate rate' : Json α) (num : String → String → α) (c : Choice) (k : String)
    (hk : k ≠ "effusion_rate_init") (v : Json α) : TopEntry (exConfigM extra rate num c) k v ↔ TopEntry (exConfigM extra rate' num c) k v := by
  have key : ∀ r r' : Json α, TopEntry (exConfigM extra r num c) k v → TopEntry (exConfigM extra r' num c) k v := by
    rintro r r' ⟨top, e, h⟩
    cases e
    refine ⟨_, rfl, ?_⟩
    rw [← h]
    simp only [lookup_cons_eq, if_neg (Ne.symm hk)]
  exact ⟨key _ _, key _ _⟩

theorem rate_entry {α : Type} (extra : List (String × Json α)) (rate rate' : Json α) (num : String → String → α) (c : Choice) (s k : String)
    (hs : s ≠ "effusion_rate_init") (v : Json α) : EntryAt (exConfigM extra rate num c) s k v ↔ EntryAt (exConfigM extra rate' num c) s k v := by
  have key : ∀ r r' : Json α, EntryAt (exConfigM extra r num c) s k v → EntryAt (exConfigM extra r' num c) s k v := by
    rintro r r' ⟨top, inner, e, h, hl⟩
    obtain ⟨top', e', h'⟩ := (rate_top extra r r' num c s hs _).mp ⟨top, e, h⟩
    exact ⟨top', inner, e', h', hl⟩
  exact ⟨key _ _, key _ _⟩

/-- The numbers of the still example with another depth of the channel. -/
noncomputable def depthNum (D : ℝ) (s k : String) : ℝ := if k = "depth" then D else stillNum 3 3 s k

theorem depthNum_used (D : ℝ) : ∀ e ∈ allReq, e ∈ usedEntries stillChoice → e ∉ [("terrain_conditions", "depth")] →
    stillNum 3 3 e.1 e.2 = depthNum D e.1 e.2 := by
  intro e ha _ hn
  have h1 : e.2 ≠ "depth" := by
    revert ha hn
    revert e
    decide
  unfold depthNum
  rw [if_neg h1]

/-- Another depth and another rate. -/
theorem supply_same (env : Env ℝ) (r r' : Int) (D : ℝ) :
    SameButSupply env stillChoice (stillConfig 3 3 (.int r)) (exConfigR (.int r') (depthNum D) stillChoice) ∧
    SameSwitch (stillConfig 3 3 (.int r)) (exConfigR (.int r') (depthNum D) stillChoice) := by
  obtain ⟨⟨h1, h2, h3, h4, h5⟩, h6⟩ := exConfig_entries [("terrain_conditions", "depth")] env (.int r') (stillNum 3 3) (depthNum D) stillChoice [] []
    (fun _ _ => rfl) (fun _ _ => rfl) (by unfold depthNum; rw [if_neg (by decide)]) (depthNum_used D) _ _ rfl rfl
  have hsec : ∀ e ∈ usedEntries stillChoice ++ idleNumbers stillChoice, e.1 ≠ "effusion_rate_init" := by decide
  refine ⟨⟨fun e he hn v => ?_, fun k hk hn v => ?_, fun e he => ?_, fun h => absurd h (by decide), fun h => absurd h (by decide)⟩, fun v => ?_⟩
  · exact (rate_entry [] (.int r) (.int r') _ _ _ _ (hsec e (List.mem_append_left _ he)) v).trans (h1 e he (by simpa using hn) v)
  · exact (rate_top [] (.int r) (.int r') _ _ _ hn v).trans (h2 k hk v)
  · refine Iff.trans ?_ (h3 e he)
    exact exists_congr fun x => exists_congr fun v =>
      and_congr_left fun _ => rate_entry [] (.int r) (.int r') _ _ _ _ (hsec e (List.mem_append_right _ he)) v
  · exact (rate_entry [] (.int r) (.int r') _ _ _ _ (by decide) v).trans (h6 rfl v)

/-- The run of the still example with the rate 1, its log and its table. -/
theorem still_one : ∃ log t, log.length = 3 ∧ writeValues log = .ok (some t) ∧
    runOn [1] 3 exEnv "still.json" "out" ⟨[("still.json", stillConfig 3 3 (.int 1))], [], []⟩ =
      some (.ok (), ⟨[("still.json", stillConfig 3 3 (.int 1))], [(resultFileName "out" "example" (toString (1 : Int)), t)], log⟩) := by
  obtain ⟨log, t, ⟨hlen, _⟩, _, hw, _, _, hrun⟩ := still_run_all exEnv rfl rfl 3 (by omega) (by omega) 1 (.inr rfl) (fun _ x => x)
  have r0 := hrun "still.json" "out" ⟨[("still.json", stillConfig 3 (3 : ℕ) (.int 1))], [], []⟩ (by rw [lookup_cons_eq, if_pos rfl])
  have e3 : ((3 : ℕ) : ℝ) = 3 := by norm_num
  rw [e3] at r0
  exact ⟨log, t, hlen, hw, r0⟩

/-- A run of at least two rows shows the depth of the channel at the vent. -/
theorem vent_shows_depth (g : Integrator ℝ) (hdx : 0 < g.dx) (n : Nat) (w w' : World ℝ) (hw : w.log = [])
    (h : runLoop g n w = some (.ok (), w')) (h2 : 2 ≤ w'.log.length) : loggedNum w'.log w.st.pos "channel_depth" = some w.terrain.depth := by
  obtain ⟨k, ws, h0, hacc, _, hlen, hfinal⟩ := C63_rows_are_final_end g hdx n w w' hw h
  rcases Nat.eq_zero_or_pos k with rfl | hk
  · rcases hlen with hlen | ⟨hlen, _⟩ <;> omega
  · obtain ⟨r, _, hshow, _⟩ := accepted_row (hacc 0 hk)
    have := hshow.channel_depth
    unfold loggedNum at this ⊢
    rw [← hfinal 0 hk, h0] at this
    exact this

/-- The world of the still example with the rate 2. -/
theorem still_supplied : (stillPrepared 3 3 (.int 2) 2 []).world = (stillPrepared 3 3 (.int 1) 1 []).world.supplied 2 1 6 := by
  unfold stillPrepared newWorld World.supplied exTerrainOf
  norm_num

/-- A search with one candidate finds it, whatever the rate. -/
theorem search_one (l : Lava ℝ) (hl : StrainIndependent l) (a : ℝ) (w w1 : World ℝ) (r d x : ℝ) (h : depthSearch l [a] w = (.ok (), w1)) :
    ∃ w2, depthSearch l [a] (w.supplied r d x) = (.ok (), w2) ∧ w2.terrain.depth = w1.terrain.depth := by
  obtain ⟨k, v, y, hk, hv, _, _, rfl⟩ := search_found l hl [a] (by simp) w w1 h
  have hk0 : k = 0 := by simpa using hk
  subst hk0
  have hv' : l.meanVelocity { w.terrain with effusionRateInit := r, depth := a } { w.st with strain := x } = .ok (v, y) := by
    rw [meanVelocity_strain l hl]
    exact hv
  unfold depthSearch
  rw [PyM.bind_of_ok (PyM.modify_apply _ _), PyM.bind_of_ok (meanVelocityM_forward (v := v) (x := y) hv'),
    PyM.bind_of_ok (PyM.modify_apply _ _), PyM.bind_of_ok (PyM.modify_apply _ _), PyM.bind_of_ok (PyM.get_apply _)]
  split
  · exact ⟨_, rfl, rfl⟩
  · exact ⟨_, rfl, rfl⟩

theorem still_free : StrainIndependent (flowG stillFluxes).models.lava :=
  strain_free_choice (c := stillChoice) (exConfig_selects _ _) (by decide) (by decide) (still_models exEnv 3 3 (.int 1))

/-- The simulation behind `still_one`. -/
theorem still_one_parts {log : Log (Cell ℝ)} {t : CsvTable (Cell ℝ)}
    (hrun : runOn [1] 3 exEnv "still.json" "out" ⟨[("still.json", stillConfig 3 3 (.int 1))], [], []⟩ =
      some (.ok (), ⟨[("still.json", stillConfig 3 3 (.int 1))], [(resultFileName "out" "example" (toString (1 : Int)), t)], log⟩)) :
    ∃ w w1, depthSearch (flowG stillFluxes).models.lava [1] (stillPrepared 3 3 (.int 1) 1 []).world = (.ok (), w1) ∧ w1.terrain.depth = 1 ∧
      w1.log = [] ∧ w1.st.pos = 0 ∧ runLoop (flowG stillFluxes) 3 w1 = some (.ok (), w) ∧ w.log = log ∧
      simulateOn [1] 3 (flowG stillFluxes) (stillPrepared 3 3 (.int 1) 1 []).world = some (.ok (), w) := by
  have hp := still_prepare exEnv rfl 3 3 (.int 1) 1 (by show (Except.ok ((1 : Int) : ℝ) : Except Err ℝ) = _; norm_num) []
  rw [runOn_finish [1] 3 exEnv "still.json" "out" _ _ (by show lookup [_] "still.json" = _; rw [lookup_cons_eq, if_pos rfl]) _ hp] at hrun
  have hg : (stillPrepared 3 3 (.int 1) 1 []).integrator = flowG stillFluxes := rfl
  rw [hg] at hrun
  cases hsim : simulateOn [1] 3 (flowG stillFluxes) (stillPrepared 3 3 (.int 1) 1 []).world with
  | none => rw [hsim] at hrun; cases hrun
  | some o =>
    obtain ⟨o, w⟩ := o
    rw [hsim] at hrun
    cases o with
    | error e => cases hrun
    | ok _ =>
      have hl : w.log = log := by
        unfold outcome finishRun at hrun
        dsimp only [Option.map_some] at hrun
        cases hw : writeValues w.log with
        | error e => rw [hw] at hrun; cases hrun
        | ok t =>
          rw [hw] at hrun
          cases t with
          | none => exact congrArg (fun q => q.2.log) (Option.some.inj hrun)
          | some t => exact congrArg (fun q => q.2.log) (Option.some.inj hrun)
      have hsim0 := hsim
      unfold simulateOn at hsim
      have k0 := initEffusion_keeps (flowG stillFluxes).models.lava [1] (stillPrepared 3 3 (.int 1) 1 []).world
      rw [search_of_rate [1] _ _ (by show (1 : ℝ) ≠ 0; norm_num)] at hsim k0
      cases hi : depthSearch (flowG stillFluxes).models.lava [1] (stillPrepared 3 3 (.int 1) 1 []).world with
      | mk o1 w1 =>
        rw [hi] at hsim k0
        obtain ⟨a1, a2, _⟩ := k0
        cases o1 with
        | error e => cases hsim
        | ok _ =>
          refine ⟨w, w1, rfl, ?_, a1, a2, hsim, hl, rfl⟩
          obtain ⟨k, v, y, hk, _, _, _, e⟩ := search_found _ still_free [1] (by simp) _ _ hi
          have hk0 : k = 0 := by simpa using hk
          subst hk0
          rw [e]
          rfl

/-- The shown depth in the run of the still example. -/
theorem still_one_depth {log : Log (Cell ℝ)} {t : CsvTable (Cell ℝ)} (hlen : log.length = 3)
    (hrun : runOn [1] 3 exEnv "still.json" "out" ⟨[("still.json", stillConfig 3 3 (.int 1))], [], []⟩ =
      some (.ok (), ⟨[("still.json", stillConfig 3 3 (.int 1))], [(resultFileName "out" "example" (toString (1 : Int)), t)], log⟩)) :
    loggedNum log 0 "channel_depth" = some 1 := by
  obtain ⟨w, w1, _, hd, hl, hp, hloop, rfl, _⟩ := still_one_parts hrun
  have := vent_shows_depth (flowG stillFluxes) (by show (0 : ℝ) < 1; norm_num) 3 w1 w hl hloop (by omega)
  rwa [hp, hd] at this

/-- **C97**, the depth: with the depth 7 m in place of 1 m the run is the same. -/
theorem depth_example : ∃ log t, log.length = 3 ∧ writeValues log = .ok (some t) ∧
    runOn [1] 3 exEnv "still.json" "out" ⟨[("still.json", exConfigR (.int 1) (depthNum 7) stillChoice)], [], []⟩ =
      some (.ok (), ⟨[("still.json", exConfigR (.int 1) (depthNum 7) stillChoice)],
        [(resultFileName "out" "example" (toString (1 : Int)), t)], log⟩) := by
  obtain ⟨log, t, hlen, hw, hrun⟩ := still_one
  refine ⟨log, t, hlen, hw, ?_⟩
  have N := still_number exEnv 3 3 (.int 1)
  have N' : ∀ e ∈ allReq, NumberAt exEnv (exConfigR (.int 1) (depthNum 7) stillChoice) e.1 e.2 (depthNum 7 e.1 e.2) :=
    fun e he => exConfig_number exEnv _ _ e he
  obtain ⟨hs1, hs2⟩ := supply_same exEnv 1 1 7
  rcases C97_depth_has_no_effect [1] (by simp) 3 exEnv "still.json" "out" ⟨[("still.json", stillConfig 3 3 (.int 1))], [], []⟩
    ⟨[("still.json", exConfigR (.int 1) (depthNum 7) stillChoice)], [], []⟩ (stillConfig 3 3 (.int 1))
    (exConfigR (.int 1) (depthNum 7) stillChoice) (by show lookup [_] "still.json" = _; rw [lookup_cons_eq, if_pos rfl])
    (by show lookup [_] "still.json" = _; rw [lookup_cons_eq, if_pos rfl]) rfl rfl stillChoice (exConfig_selects _ _) hs1 hs2 (by decide) (by decide)
    (.int 1) ⟨_, rfl, rfl⟩ ⟨_, rfl, rfl⟩ ((1 : Int) : ℝ) rfl (by norm_num) 1 7 (N ("terrain_conditions", "depth") (by decide)) (by norm_num)
    (N' ("terrain_conditions", "depth") (by decide)) (by norm_num) with ⟨e, e', h, _⟩ | ⟨h, _⟩ | ⟨o, l, res, h1, h2⟩
  · rw [hrun] at h; cases h
  · rw [hrun] at h; cases h
  · rw [hrun] at h1
    have e := Option.some.inj h1
    rw [h2, ← (Prod.mk.inj e).1]
    have e2 := (Prod.mk.inj e).2
    have e3 := congrArg Proc.log e2
    have e4 := congrArg Proc.results e2
    dsimp only at e3 e4
    rw [← e3, ← e4]

/-- **C97**, the rate: the rates 1 and 2 lead to the same depth (the one candidate of the search) and the same table. -/
theorem rate_example : ∃ log t, log.length = 3 ∧ writeValues log = .ok (some t) ∧ loggedNum log 0 "channel_depth" = some 1 ∧
    runOn [1] 3 exEnv "still.json" "out" ⟨[("still.json", stillConfig 3 3 (.int 1))], [], []⟩ =
      some (.ok (), ⟨[("still.json", stillConfig 3 3 (.int 1))], [(resultFileName "out" "example" (toString (1 : Int)), t)], log⟩) ∧
    runOn [1] 3 exEnv "still.json" "out" ⟨[("still.json", stillConfig 3 3 (.int 2))], [], []⟩ =
      some (.ok (), ⟨[("still.json", stillConfig 3 3 (.int 2))], [(resultFileName "out" "example" (toString (2 : Int)), t)], log⟩) := by
  obtain ⟨log, t, hlen, hw, hrun⟩ := still_one
  refine ⟨log, t, hlen, hw, still_one_depth hlen hrun, hrun, ?_⟩
  obtain ⟨w, w1, hs, hd, hl, hp, hloop, rfl, hsim⟩ := still_one_parts hrun
  obtain ⟨w2, hs2, hd2⟩ := search_one _ still_free 1 _ w1 2 1 6 hs
  have key := C97_same_depth [1] (by simp) 3 (flowG stillFluxes) still_free (stillPrepared 3 3 (.int 1) 1 []).world
    (by show (1 : ℝ) ≠ 0; norm_num) 2 1 6 (by norm_num) w1 w2 (by rw [search_of_rate _ _ _ (by show (1 : ℝ) ≠ 0; norm_num)]; exact hs)
    (by rw [search_of_rate _ _ _ (by show (2 : ℝ) ≠ 0; norm_num)]; exact hs2) hd2.symm
  have hp := still_prepare exEnv rfl 3 3 (.int 2) 2 (by show (Except.ok ((2 : Int) : ℝ) : Except Err ℝ) = _; norm_num) []
  rw [runOn_finish [1] 3 exEnv "still.json" "out" _ _ (by show lookup [_] "still.json" = _; rw [lookup_cons_eq, if_pos rfl]) _ hp]
  have hg : (stillPrepared 3 3 (.int 2) 2 []).integrator = flowG stillFluxes := rfl
  rw [hg, still_supplied, key, hsim]
  unfold outcome finishRun
  dsimp only [Option.map_some]
  rw [hw]
  rfl

/-- The hypotheses of `C97_same_channel_depth` and `C97_deeper_channel` are met by these two runs. -/
example : ∃ q q' : Proc ℝ, q'.log = q.log ∧ q.log.length = 3 ∧ ∃ D : ℝ, loggedNum q.log 0 "channel_depth" = some D ∧ D ≤ D ∧
    ∃ t name name', q.results = writeFile [] name t ∧ q'.results = writeFile [] name' t := by
  obtain ⟨log, t, hlen, hw, hD, h1, h2⟩ := rate_example
  have N := still_number exEnv 3 3 (.int 1)
  have hs : SameButSupply exEnv stillChoice (stillConfig 3 3 (.int 1)) (stillConfig 3 3 (.int 2)) ∧
      SameSwitch (stillConfig 3 3 (.int 1)) (stillConfig 3 3 (.int 2)) := by
    have e : exConfigR (.int 2) (depthNum 1) stillChoice = stillConfig 3 3 (.int 2) := by
      have : depthNum 1 = stillNum 3 3 := by
        funext s k
        unfold depthNum
        split
        · rename_i hk; rw [hk]; rfl
        · rfl
      rw [this]; rfl
    rw [← e]
    exact supply_same exEnv 1 2 1
  have r1 : RateIs exEnv (stillConfig 3 3 (.int 1)) ((1 : Int) : ℝ) := ⟨_, ⟨_, rfl, rfl⟩, rfl⟩
  have r2 : RateIs exEnv (stillConfig 3 3 (.int 2)) ((2 : Int) : ℝ) := ⟨_, ⟨_, rfl, rfl⟩, rfl⟩
  obtain ⟨g1, t', name, name', g2, g3, g4⟩ := C97_same_channel_depth [1] (by simp) 3 exEnv "still.json" "out" ⟨[("still.json", stillConfig 3 3 (.int 1))], [], []⟩
    ⟨[("still.json", stillConfig 3 3 (.int 2))], [], []⟩ (stillConfig 3 3 (.int 1))
    (stillConfig 3 3 (.int 2)) (by show lookup [_] "still.json" = _; rw [lookup_cons_eq, if_pos rfl])
    (by show lookup [_] "still.json" = _; rw [lookup_cons_eq, if_pos rfl]) rfl rfl stillChoice (exConfig_selects _ _) hs.1 hs.2 (by decide) (by decide)
    ((1 : Int) : ℝ) ((2 : Int) : ℝ) r1 r2 (by norm_num) (by norm_num) 0 (N ("lava_state", "position") (by decide)) (.num 1) ⟨_, rfl, rfl⟩ 1 rfl (by norm_num)
    _ _ h1 h2 1 hD hD
  have g5 := C97_deeper_channel [1] (by simp) (by simp) 3 exEnv "still.json" "out" ⟨[("still.json", stillConfig 3 3 (.int 1))], [], []⟩
    ⟨[("still.json", stillConfig 3 3 (.int 2))], [], []⟩ (stillConfig 3 3 (.int 1))
    (stillConfig 3 3 (.int 2)) (by show lookup [_] "still.json" = _; rw [lookup_cons_eq, if_pos rfl])
    (by show lookup [_] "still.json" = _; rw [lookup_cons_eq, if_pos rfl]) rfl rfl stillChoice (exConfig_selects _ _) hs.1 hs.2 (by decide) (by decide)
    ((1 : Int) : ℝ) ((2 : Int) : ℝ) r1 r2 (by norm_num) (by norm_num) (by norm_num) 0 (N ("lava_state", "position") (by decide)) (.num 1) ⟨_, rfl, rfl⟩ 1 rfl (by norm_num)
    _ _ h1 h2 1 1 hD hD
  exact ⟨_, _, g1, hlen, 1, hD, g5, t', name, name', g3, g4⟩

/-- **C97**, no rate: the rate 0 with the depth that was found for the rate 1. -/
theorem zero_example : ∃ log t name, log.length = 3 ∧ writeValues log = .ok (some t) ∧
    runOn [1] 3 exEnv "still.json" "out" ⟨[("still.json", exConfigR (.int 0) (depthNum 1) stillChoice)], [], []⟩ =
      some (.ok (), ⟨[("still.json", exConfigR (.int 0) (depthNum 1) stillChoice)], [(name, t)], log⟩) := by
  obtain ⟨log, t, hlen, hw, hD, h1, _⟩ := rate_example
  have N := still_number exEnv 3 3 (.int 1)
  have N' : ∀ e ∈ allReq, NumberAt exEnv (exConfigR (.int 0) (depthNum 1) stillChoice) e.1 e.2 (depthNum 1 e.1 e.2) :=
    fun e he => exConfig_number exEnv _ _ e he
  have r1 : RateIs exEnv (stillConfig 3 3 (.int 1)) ((1 : Int) : ℝ) := ⟨_, ⟨_, rfl, rfl⟩, rfl⟩
  have r2 : RateIs exEnv (exConfigR (.int 0) (depthNum 1) stillChoice) 0 :=
    ⟨_, ⟨_, rfl, rfl⟩, by show (Except.ok ((0 : Int) : ℝ) : Except Err ℝ) = _; norm_num⟩
  obtain ⟨hs1, hs2⟩ := supply_same exEnv 1 0 1
  have hmass : ∀ v, EntryAt (stillConfig 3 3 (.int 1)) "terrain_conditions" "mass_conservation" v → v = .bool false := by
    rintro v ⟨top, inner, e1, e2, e3⟩
    cases e1
    cases e2
    simp [exSection, allReq, lookup_cons_eq, lookup] at e3
  obtain ⟨t', name, name', g2, g3, g4⟩ := C97_without_rate [1] (by simp) 3 exEnv "still.json" "out" ⟨[("still.json", stillConfig 3 3 (.int 1))], [], []⟩
    ⟨[("still.json", exConfigR (.int 0) (depthNum 1) stillChoice)], [], []⟩ (stillConfig 3 3 (.int 1))
    (exConfigR (.int 0) (depthNum 1) stillChoice) (by show lookup [_] "still.json" = _; rw [lookup_cons_eq, if_pos rfl])
    (by show lookup [_] "still.json" = _; rw [lookup_cons_eq, if_pos rfl]) rfl rfl stillChoice (exConfig_selects _ _) hs1 hs2 (by decide) (by decide)
    hmass ((1 : Int) : ℝ) r1 r2 (by norm_num) 0 (N ("lava_state", "position") (by decide)) (.num 1) ⟨_, rfl, rfl⟩ 1 rfl (by norm_num)
    _ h1 1 hD (N' ("terrain_conditions", "depth") (by decide))
  have hw' : writeValues log = .ok (some t') := g2
  exact ⟨log, t', name', hlen, hw', g4⟩

/-- The depths the program tries are in increasing order and there is at least one, so `C97_deeper_channel` applies to `run`. -/
theorem C97_program_depths : (depthGrid : List ℝ) ≠ [] ∧ (depthGrid : List ℝ).Pairwise (· ≤ ·) := by
  refine ⟨fun e => ?_, ?_⟩
  · have := congrArg List.length e
    rw [depthGrid_length] at this
    simp at this
  · rw [List.pairwise_iff_getElem]
    intro i j hi hj hij
    have e : ∀ k (h : k < (depthGrid : List ℝ).length), (depthGrid : List ℝ)[k] = gridDepth k := by
      intro k h
      rw [← depthGrid_getD k (by rw [← depthGrid_length]; exact h), List.getD_eq_getElem?_getD, List.getElem?_eq_getElem h, Option.getD_some]
    rw [e i hi, e j hj]
    unfold gridDepth
    have : (i : ℝ) ≤ j := by exact_mod_cast hij.le
    linarith

end PyFlowGo
