import Verif.Props.SweepFull
import Verif.Props.PlotExamples
import Verif.Props.SweepExample
/-
  C68 on complete sweeps, from the configuration file to the run-out file.
-/
namespace PyFlowGo
open Spec

/-- Numbers of a flow in still air that runs `len` metres under the gravity `g`. -/
noncomputable def stillNum (g len : ℝ) (_ : String) (key : String) : ℝ :=
  match key with
  | "gravity" => g
  | "max_channel_length" => len
  | "position" => 0
  | "eruption_temperature" => 1000
  | "buffer" => 0
  | "vesicle_fraction" => 0
  | "crystal_fraction" => 0
  | "solid_temperature" => 0
  | "rainfall_rate" => 1 / 1000
  | "stefan-boltzmann_sigma" => 0
  | "basal_temperature" => 300
  | "core_base_distance" => 10000000000
  | "alpha" => 0
  | "crust_temperature" => 500
  | "air_temperature" => 300
  | "wind_speed" => 0
  | "einstein_coef" => 0
  | _ => 1

/-- Its models: Krieger-Dougherty, radiation, conduction, forced convection and rain. -/
def stillChoice : Choice := { exChoice with rel := "kd", radiation := "basic", conduction := "yes", convection := "yes" }

noncomputable def stillConfig (g len : ℝ) (rate : Json ℝ) : Json ℝ := exConfigR rate (stillNum g len) stillChoice

theorem still_number (env : Env ℝ) (g len : ℝ) (rate : Json ℝ) (e : Req) (he : e ∈ allReq) :
    NumberAt env (stillConfig g len rate) e.1 e.2 (stillNum g len e.1 e.2) := exConfig_number env _ _ e he

theorem still_models (env : Env ℝ) (g len : ℝ) (rate : Json ℝ) : factory env (stillConfig g len rate) = .ok (flowModels stillFluxes) := by
  have N := still_number env g len rate
  refine (C55_models_come_from_the_configuration _ _ _).mpr ⟨stillChoice, exConfig_selects _ _, ?_, ?_, ?_, ?_, ?_, ?_⟩
  · exact ⟨_, _, _, _, N ("lava_state", "crystal_fraction") (by decide),
      N ("crystals_parameters", "crystals_grown_during_cooling") (by decide),
      N ("crystals_parameters", "solid_temperature") (by decide),
      N ("eruption_condition", "eruption_temperature") (by decide), rfl⟩
  · exact ⟨N ("convection_parameters", "air_temperature") (by decide), N ("convection_parameters", "wind_speed") (by decide),
      N ("convection_parameters", "ch_air") (by decide), N ("convection_parameters", "air_density") (by decide),
      N ("convection_parameters", "air_specific_heat_capacity") (by decide)⟩
  · exact ⟨⟨_, _, N ("eruption_condition", "viscosity_eruption") (by decide),
        N ("eruption_condition", "eruption_temperature") (by decide), rfl⟩,
      ⟨_, N ("lava_state", "vesicle_fraction") (by decide), rfl⟩,
      ⟨_, _, N ("relative_viscosity_parameters", "max_packing") (by decide),
        N ("relative_viscosity_parameters", "einstein_coef") (by decide), rfl⟩, rfl,
      ⟨_, N ("eruption_condition", "eruption_temperature") (by decide), rfl⟩,
      N ("eruption_condition", "eruption_temperature") (by decide), N ("thermal_parameters", "buffer") (by decide),
      N ("crystals_parameters", "latent_heat_of_crystallization") (by decide), N ("lava_state", "density_dre") (by decide),
      _, N ("relative_viscosity_parameters", "max_packing") (by decide)⟩
  · exact ⟨_, _, N ("thermal_parameters", "alpha") (by decide), N ("thermal_parameters", "crust_cover_fraction") (by decide), rfl⟩
  · exact ⟨_, N ("thermal_parameters", "crust_temperature") (by decide), rfl⟩
  · exact ⟨[.radBasic 0 1], [.conduction 300 10000000000], [.convection], [.rain (1 / 1000) 1 1], [], [], rfl,
      ⟨_, _, N ("radiation_parameters", "stefan-boltzmann_sigma") (by decide), N ("radiation_parameters", "emissivity_epsilon") (by decide), rfl⟩,
      Or.inl ⟨rfl, _, ⟨_, _, N ("conduction_parameters", "basal_temperature") (by decide),
        N ("conduction_parameters", "core_base_distance") (by decide), rfl⟩, rfl⟩, Or.inl ⟨rfl, _, rfl, rfl⟩,
      Or.inl ⟨rfl, _, ⟨_, _, _, N ("rain_parameters", "rainfall_rate") (by decide),
        N ("rain_parameters", "density_water") (by decide), N ("rain_parameters", "latent_heat_vaporization") (by decide), rfl⟩, rfl⟩,
      Or.inr ⟨rfl, rfl⟩, Or.inr ⟨rfl, rfl⟩, fun h => absurd (show ("no" : String) = "yes" from h) (by decide)⟩

/-- The prepared run. -/
noncomputable def stillPrepared (g len : ℝ) (rate : Json ℝ) (e : ℝ) (log : Log (Cell ℝ)) : Prepared ℝ :=
  { cfg := { rate := rate, lavaName := .str "example", slopeFile := .str "slope.txt", stepSize := 1,
             massConservation := false }
    integrator := flowG stillFluxes
    world := newWorld { exTerrainOf e len with gravity := g } { crystal := 0, temp := 1000, pos := 0, time := 1, strain := 3 * e } log }

theorem still_prepare (env : Env ℝ) (hslope : env.slopeFile "slope.txt" = some [⟨0, 0, 0, 0, 90⟩, ⟨0, 0, 0, 2000, 90⟩])
    (g len : ℝ) (rate : Json ℝ) (e : ℝ) (hrate : rate.toFloat env = .ok e) (log : Log (Cell ℝ)) :
    prepare env (stillConfig g len rate) log = .ok (stillPrepared g len rate e log) := by
  have N := still_number env g len rate
  rw [C55_run_starts_from_the_configuration]
  refine ⟨⟨⟨_, rfl, rfl⟩, ⟨_, rfl, rfl⟩, ⟨_, rfl, rfl⟩, ⟨_, ⟨_, rfl, rfl⟩, rfl⟩, _, ⟨_, rfl, rfl⟩, rfl⟩,
    ⟨{ exTerrainOf e len with gravity := g, spline := none }, "slope.txt", [⟨0, 0, 0, 0, 90⟩, ⟨0, 0, 0, 2000, 90⟩],
      ⟨⟨_, ⟨_, rfl, rfl⟩, hrate⟩, N ("terrain_conditions", "depth") (by decide), N ("terrain_conditions", "width") (by decide),
        N ("terrain_conditions", "gravity") (by decide), N ("terrain_conditions", "max_channel_length") (by decide),
        ⟨_, ⟨_, _, rfl, rfl, rfl⟩, ?_⟩, fun h => ?_, fun _ => rfl, rfl⟩, rfl, Or.inl rfl, hslope, ?_⟩,
    still_models env g len rate, rfl, rfl, N ("lava_state", "position") (by decide),
    N ("lava_state", "time") (by decide), N ("lava_state", "crystal_fraction") (by decide),
    N ("eruption_condition", "eruption_temperature") (by decide), one_ne_zero, one_ne_zero, ?_, rfl, ?_, rfl, rfl, rfl⟩
  · simp [exTerrainOf]
  · simp [exTerrainOf] at h
  · have hk : keepSlopeLines [(⟨0, 0, 0, 0, 90⟩ : SlopeLine ℝ), ⟨0, 0, 0, 2000, 90⟩] =
        [⟨0, 0, 0, 0, 90⟩, ⟨0, 0, 0, 2000, 90⟩] := by
      unfold keepSlopeLines
      have : leB (90 : ℝ) 0.1 = false := by
        rw [Bool.eq_false_iff]; simp only [ne_eq, leB_real]; norm_num
      simp [this]
    have hmake : Spline.make [(0 : ℝ), 2000] [degToRad 90, degToRad 90] =
        .ok ⟨[(0, degToRad 90), (2000, degToRad 90)]⟩ := by
      rw [make_ok_iff]
      exact ⟨rfl, by simp, by simp [Ascending], rfl⟩
    unfold Terrain.readSlope
    rw [hk]
    dsimp only
    rw [mapM_eq_map _ (fun r : SlopeLine ℝ => degToRad r.slopeDeg) _ (fun r _ => radians_real r.slopeDeg)]
    simp only [exTerrainOf, ok_bind, Bool.false_eq_true, if_false, List.map_cons, List.map_nil, hmake]
    rfl
  · simp [stillPrepared, newWorld, exTerrainOf]
  · show (0.0 : ℝ) = 0; norm_num

theorem exTerrainOf_channel (e len : ℝ) (he : e = 0 ∨ e = 1) : LongChannel len (exTerrainOf e len) :=
  ⟨fun x => exTerrainOf_slope e len x, rfl, rfl, rfl, rfl, he⟩

/-- The depth search with the single candidate 1 m, for the rates 0 and 1. -/
theorem still_search (len e : ℝ) (he : e = 0 ∨ e = 1) (w : World ℝ) (h : LongInv (exTerrainOf e len) (11 / 10000) 0 0 w) :
    ∃ w', initEffusionRateOn [1] (exLava 1 (.kd 1 0) .ryerson) w = (.ok (), w') ∧
      LongInv (exTerrainOf e len) (11 / 10000) 0 0 w' ∧ w'.log = w.log := by
  unfold initEffusionRateOn
  rw [PyM.bind_of_ok (PyM.get_apply _)]
  rcases he with rfl | rfl
  · have : eqB w.terrain.effusionRateInit 0.0 = true := by
      rw [eqB_real, h.terrain]; show (0 : ℝ) = 0.0; norm_num
    rw [this]
    exact ⟨w, rfl, h, rfl⟩
  · have hne : eqB w.terrain.effusionRateInit 0.0 = false := by
      rw [Bool.eq_false_iff, ne_eq, eqB_real, h.terrain]
      show ¬ (1 : ℝ) = 0.0
      norm_num
    rw [hne]
    simp only [Bool.false_eq_true, if_false]
    unfold depthSearch
    rw [PyM.bind_of_ok (PyM.modify_apply _ _)]
    have hterr : ({ w.terrain with depth := 1 } : Terrain ℝ) = exTerrainOf 1 len := by rw [h.terrain]; rfl
    rw [hterr]
    obtain ⟨v, hv, _, _⟩ := long_velocity (exTerrainOf_channel 1 len (Or.inr rfl)) w.st h.phi0
      (by have := h.start rfl; linarith) h.temp
    rw [PyM.bind_of_ok (meanVelocityM_forward (v := v) (x := 3 * v / 1) (w := { w with terrain := exTerrainOf 1 len }) hv)]
    rw [PyM.bind_of_ok (PyM.modify_apply _ _), PyM.bind_of_ok (PyM.modify_apply _ _), PyM.bind_of_ok (PyM.get_apply _)]
    obtain ⟨_, wi, wf, wr, wp, p0, p1, wz, wT⟩ := h
    split
    · exact ⟨_, rfl, ⟨rfl, wi, wf, fun h => absurd rfl h, wp, p0, p1, wz, wT⟩, rfl⟩
    · exact ⟨_, rfl, ⟨rfl, wi, wf, fun h => absurd rfl h, wp, p0, p1, wz, wT⟩, rfl⟩

/-- The slope file of the example environment. -/
noncomputable def exLines : List (SlopeLine ℝ) := [⟨0, 0, 0, 0, 90⟩, ⟨0, 0, 0, 2000, 90⟩]

/-- One run of the sweep, for the rates 0 and 1: `n` rows, which can be post-processed from 2 rows on and drawn from 3 on. -/
theorem still_run_all (env : Env ℝ) (hslope : env.slopeFile "slope.txt" = some [⟨0, 0, 0, 0, 90⟩, ⟨0, 0, 0, 2000, 90⟩])
    (hcanon : env.canon = id) (n : Nat) (hn1 : 1 ≤ n) (hn3 : n ≤ 3) (r : Int) (hr : r = 0 ∨ r = 1) (round : Nat → ℝ → ℝ) :
    ∃ log t, (log.length = n ∧ (∀ r ∈ log, ∀ c, c ∈ r.keys ↔ c ∈ runColumns (flowG stillFluxes)) ∧
        ColumnIs log "position" ((List.range n).map fun i : ℕ => (i : ℝ))) ∧
      log ≠ [] ∧ writeValues log = .ok (some t) ∧ ((∃ c, plotFile false t = .ok (c, true)) ↔ 3 ≤ n) ∧
      (2 ≤ n → ∃ l, getRunOut round t exLines = .ok l) ∧
      ∀ working folder p, lookup p.json working = some (stillConfig 3 n (.int r)) →
        runOn [1] n env working folder (newRunner p) = some (.ok (),
          { json := p.json, results := (resultFileName folder "example" (toString r), t) :: p.results, log := log }) := by
  have he : (PyNum.ofInt r : ℝ) = 0 ∨ (PyNum.ofInt r : ℝ) = 1 := by
    rcases hr with rfl | rfl
    · left; show ((0 : Int) : ℝ) = 0; norm_num
    · right; show ((1 : Int) : ℝ) = 1; norm_num
  generalize hE : (PyNum.ofInt r : ℝ) = e at he
  have hgrav : ∀ len, ({ exTerrainOf e len with gravity := 3 } : Terrain ℝ) = exTerrainOf e len := fun _ => rfl
  have hprep := still_prepare env hslope 3 n (.int r) e (by rw [← hE]; rfl) []
  have hT := exTerrainOf_channel e n he
  have hinv : LongInv (exTerrainOf e n) (11 / 10000) 0 0 (stillPrepared 3 n (.int r) e []).world :=
    { terrain := rfl, iter := rfl, unfinished := rfl, rate := fun h => absurd rfl h, pos := by show (0 : ℝ) = _; simp,
      phi0 := le_refl (0 : ℝ), phi1 := by show (0 : ℝ) ≤ _; simp
      start := fun _ => rfl, temp := by show 1000 - 1000 * (0 : ℝ) ≤ 1000 ∧ (1000 : ℝ) ≤ 1000; norm_num }
  obtain ⟨w1, hs, hinv1, hlog1⟩ := still_search n e he _ hinv
  have hlog1 : w1.log = [] := hlog1
  have hnR : (n : ℝ) ≤ 3 := by exact_mod_cast hn3
  obtain ⟨w', t, a1, a2, a3, a4⟩ := still_result hT stillFluxes (11 / 10000) 0 (gentle_all hT) (by norm_num) n hn1 (by linarith) (by linarith)
    (by linarith) w1 hinv1 hlog1
  have hdx : 0 < (flowG stillFluxes).dx := by show (0:ℝ) < 1; norm_num
  have hlast : ∀ name, name ∈ stepColumns → ∀ r ∈ w'.log.getLast?, name ∈ r.keys := fun name hn r hr =>
    (a3 r (List.mem_of_getLast? hr) name).mpr (List.mem_cons_of_mem _ (List.mem_append_right _ hn))
  have hdraw := C67_run_can_be_drawn false _ hdx n _ w' hlog1 a1 t a4
  have hcol := run_positions_column _ hdx n _ w' hlog1 a1
  rw [a2] at hcol
  have hpos : (List.range n).map (fun i : ℕ => w1.st.pos + (i : ℝ) * (flowG stillFluxes).dx) =
      (List.range n).map fun i : ℕ => (i : ℝ) := by
    refine List.map_congr_left fun i _ => ?_
    rw [hinv1.pos]
    show (0 : ℝ) + ((0 : ℕ) : ℝ) + (i : ℝ) * 1 = i
    simp
  rw [hpos] at hcol
  refine ⟨w'.log, t, ⟨a2, a3, hcol⟩, ?_, a4, ⟨?_, ?_⟩, ?_, ?_⟩
  · intro h; rw [h] at a2; simp only [List.length_nil] at a2; omega
  · rintro ⟨c, hc⟩
    have := (hdraw.mp ⟨c, true, hc⟩).1
    omega
  · intro h3
    obtain ⟨c, q', hc⟩ := hdraw.mpr ⟨by omega, hlast "slope" (by decide), Or.inl (by simp [flowG, flowModels, stillFluxes])⟩
    obtain ⟨_, _, _, _, _, _, _, rfl⟩ := (C67_curves false q' _ t a4 c).mp hc
    exact ⟨c, hc⟩
  · intro h2
    exact (C60_run_can_be_post_processed round _ hdx n _ w' hlog1 a1 t a4 exLines).mpr
      ⟨by omega, hlast "viscosity" (by decide), ⟨0, 0, 0, 0, 90⟩, by simp [exLines], by
        rw [hinv1.pos, a2]
        show (0 : ℝ) ≤ 2 * (0 + ((0 : ℕ) : ℝ)) + (n : ℝ) * 1
        norm_num⟩
  · intro working folder p hp
    have hsim : simulateOn [1] n (stillPrepared 3 n (.int r) e []).integrator (stillPrepared 3 n (.int r) e []).world =
        some (.ok (), w') := by
      unfold simulateOn
      have : (stillPrepared 3 n (.int r) e []).integrator.models.lava = exLava 1 (.kd 1 0) .ryerson := rfl
      rw [this, hs]
      exact a1
    have := (runOn_of (env := env) (p := newRunner p) (jsonFile := working) (folder := folder)
      (by rw [hcanon]; exact hp) hprep hsim).1 t a4
    rw [hcanon] at this
    exact this

theorem still_run_in (env : Env ℝ) (hslope : env.slopeFile "slope.txt" = some [⟨0, 0, 0, 0, 90⟩, ⟨0, 0, 0, 2000, 90⟩])
    (hcanon : env.canon = id) (n : Nat) (hn1 : 1 ≤ n) (hn3 : n ≤ 3) (r : Int) (hr : r = 0 ∨ r = 1) (round : Nat → ℝ → ℝ) :
    ∃ log t, log ≠ [] ∧ writeValues log = .ok (some t) ∧ ((∃ c, plotFile false t = .ok (c, true)) ↔ 3 ≤ n) ∧
      (2 ≤ n → ∃ l, getRunOut round t exLines = .ok l) ∧
      ∀ working folder p, lookup p.json working = some (stillConfig 3 n (.int r)) →
        runOn [1] n env working folder (newRunner p) = some (.ok (),
          { json := p.json, results := (resultFileName folder "example" (toString r), t) :: p.results, log := log }) := by
  obtain ⟨log, t, _, h⟩ := still_run_all env hslope hcanon n hn1 hn3 r hr round
  exact ⟨log, t, h⟩

theorem still_run (n : Nat) (hn1 : 1 ≤ n) (hn3 : n ≤ 3) (r : Int) (hr : r = 0 ∨ r = 1) (round : Nat → ℝ → ℝ) :
    ∃ log t, log ≠ [] ∧ writeValues log = .ok (some t) ∧ ((∃ c, plotFile false t = .ok (c, true)) ↔ 3 ≤ n) ∧
      (2 ≤ n → ∃ l, getRunOut round t exLines = .ok l) ∧
      ∀ working folder p, lookup p.json working = some (stillConfig 3 n (.int r)) →
        runOn [1] n exEnv working folder (newRunner p) = some (.ok (),
          { json := p.json, results := (resultFileName folder "example" (toString r), t) :: p.results, log := log }) :=
  still_run_in exEnv rfl rfl n hn1 hn3 r hr round

/-- A process with this configuration. -/
noncomputable def stillProc (n : Nat) : Proc ℝ := { json := [("still.json", stillConfig 3 n (.int 7))], results := [], log := [] }

theorem ex_distinct (folder lava : String) : DistinctFiles exEnv folder lava :=
  fun a b h => C57_names_distinct folder lava a b h

/-- The sweep over the rates 0 and 1, and its two runs. -/
theorem still_sweep_runs (n : Nat) (t0 t1 : CsvTable (Cell ℝ)) (log0 log1 : Log (Cell ℝ))
    (run0 : ∀ working folder p, lookup p.json working = some (stillConfig 3 n (.int 0)) →
        runOn [1] n exEnv working folder (newRunner p) = some (.ok (),
          { json := p.json, results := (resultFileName folder "example" (toString (0 : Int)), t0) :: p.results, log := log0 }))
    (run1 : ∀ working folder p, lookup p.json working = some (stillConfig 3 n (.int 1)) →
        runOn [1] n exEnv working folder (newRunner p) = some (.ok (),
          { json := p.json, results := (resultFileName folder "example" (toString (1 : Int)), t1) :: p.results, log := log1 })) :
    ∃ p1 names runs, sweep [1] n exEnv "still.json" "out" 0 1 1 (stillProc n) = some (.ok names, p1) ∧
      runs.map SweepRun.log = [log0, log1] ∧
      List.Forall₂ (IsSweepRun [1] n exEnv (stillConfig 3 n (.int 7)) (workingFile "still.json" "out") "out") [0, 1] runs ∧
      p1.results = runs.reverse.flatMap (·.files) ++ (stillProc n).results := by
  have hlv : ∀ rate, (stillConfig 3 n rate).get "lava_name" = .ok (.str "example") := fun _ => rfl
  have hset : ∀ rate r, (stillConfig 3 n rate).set "effusion_rate_init" (.int r) = .ok (stillConfig 3 n (.int r)) := fun _ _ => rfl
  have hsweep : ∃ p1, sweep [1] n exEnv "still.json" "out" 0 1 1 (stillProc n) = some (.ok
      [resultFileName "out" "example" (toString (0 : Int)), resultFileName "out" "example" (toString (1 : Int))], p1) ∧
      p1.results = [(resultFileName "out" "example" (toString (1 : Int)), t1),
        (resultFileName "out" "example" (toString (0 : Int)), t0)] := by
    have h1 : lookup (stillProc n).json (exEnv.canon "still.json") = some (stillConfig 3 n (.int 7)) := rfl
    have h2 : sweepRates 0 1 1 = .ok [0, 1] := rfl
    unfold sweep
    rw [h1]; dsimp only; rw [h2]; dsimp only
    unfold sweepLoop
    rw [hset]; dsimp only
    rw [run0 _ _ _ (by rw [writeFile, lookup_cons]; exact if_pos rfl)]; dsimp only
    rw [hlv]; dsimp only
    unfold sweepLoop
    rw [hset]; dsimp only
    rw [run1 _ _ _ (by rw [writeFile, lookup_cons]; exact if_pos rfl)]; dsimp only
    rw [hlv]; dsimp only
    exact ⟨_, rfl, rfl⟩
  obtain ⟨p1, hsweep, hres⟩ := hsweep
  refine ⟨p1, _, [⟨stillConfig 3 n (.int 0), log0, [(resultFileName "out" "example" (toString (0 : Int)), t0)]⟩,
       ⟨stillConfig 3 n (.int 1), log1, [(resultFileName "out" "example" (toString (1 : Int)), t1)]⟩], hsweep, rfl, ?_,
    by rw [hres]; rfl⟩
  have hwith : ∀ r : Int, WithRate (stillConfig 3 n (.int 7)) (stillConfig 3 n (.int r)) r := by
    intro r
    obtain ⟨a, b⟩ := set_spec _ _ _ _ (hset (.int 7) r)
    exact ⟨a, b⟩
  have hn : ∀ p : Proc ℝ, p.log = [] → newRunner p = p := fun p h => by cases p; simp only at h; subst h; rfl
  refine List.Forall₂.cons ⟨hwith 0, ?_⟩ (List.Forall₂.cons ⟨hwith 1, ?_⟩ List.Forall₂.nil)
  · unfold freshOutcome
    have := run0 (workingFile "still.json" "out") "out" { json := [(exEnv.canon (workingFile "still.json" "out"), stillConfig 3 n (.int 0))], results := [], log := [] }
      (by rw [lookup_cons]; exact if_pos rfl)
    rw [hn _ rfl] at this
    rw [this]; rfl
  · unfold freshOutcome
    have := run1 (workingFile "still.json" "out") "out" { json := [(exEnv.canon (workingFile "still.json" "out"), stillConfig 3 n (.int 1))], results := [], log := [] }
      (by rw [lookup_cons]; exact if_pos rfl)
    rw [hn _ rfl] at this
    rw [this]; rfl

/-- **C68**: a sweep over the rates 0 and 1 that ends normally, with all its output. -/
example (round : Nat → ℝ → ℝ) :
    ∃ p1 cs ls, sweepFull [1] 3 round exEnv "still.json" "out" "slope.txt" 0 1 1 (stillProc 3) = some (.ok (), p1,
      { curves := some cs, runOuts := some { path := "out/run_outs_example.csv", flowId := "example", lines := ls } }) ∧
      cs.length = 2 ∧ ls.length = 2 := by
  obtain ⟨log0, t0, n0, w0, pl0, g0, run0⟩ := still_run 3 (by norm_num) le_rfl 0 (Or.inl rfl) round
  obtain ⟨log1, t1, n1, w1, pl1, g1, run1⟩ := still_run 3 (by norm_num) le_rfl 1 (Or.inr rfl) round
  obtain ⟨c0, pl0⟩ := pl0.mpr le_rfl
  obtain ⟨c1, pl1⟩ := pl1.mpr le_rfl
  obtain ⟨l0, g0⟩ := g0 (by norm_num)
  obtain ⟨l1, g1⟩ := g1 (by norm_num)
  obtain ⟨p1, names, runs, hsweep, hlogs, hruns, hres⟩ := still_sweep_runs 3 t0 t1 log0 log1 run0 run1
  obtain ⟨o0, runs, rfl⟩ : ∃ o0 rest, runs = o0 :: rest := by cases runs with | nil => cases hlogs | cons a b => exact ⟨a, b, rfl⟩
  obtain ⟨o1, runs, rfl⟩ : ∃ o0 rest, runs = o0 :: rest := by cases runs with | nil => cases hlogs | cons a b => exact ⟨a, b, rfl⟩
  obtain rfl : runs = [] := by cases runs with | nil => rfl | cons a b => cases hlogs
  simp only [List.map_cons, List.map_nil, List.cons.injEq, and_true] at hlogs
  obtain ⟨rfl, rfl⟩ := hlogs
  have := (C68_sweep_output [1] 3 round exEnv "still.json" "out" "slope.txt" 0 1 1 (stillProc 3) p1 _ (stillConfig 3 (3 : ℕ) (.int 7)) [0, 1]
    (.str "example") _ hsweep rfl rfl ⟨_, rfl, rfl⟩ hruns hres (ex_distinct _ _)
    (by intro o ho; simp only [List.mem_cons, List.not_mem_nil, or_false] at ho; rcases ho with rfl | rfl <;> assumption)
    { curves := some [c0, c1], runOuts := some { path := "out/run_outs_example.csv", flowId := "example", lines := [l0, l1] } }).mpr
    ⟨by simp, ⟨"slope.txt", exLines, ⟨_, rfl, rfl⟩, rfl⟩, exLines, [c0, c1], [l0, l1], rfl,
      List.Forall₂.cons ⟨t0, w0, pl0⟩ (List.Forall₂.cons ⟨t1, w1, pl1⟩ List.Forall₂.nil),
      List.Forall₂.cons ⟨t0, w0, g0⟩ (List.Forall₂.cons ⟨t1, w1, g1⟩ List.Forall₂.nil), rfl⟩
  exact ⟨p1, _, _, this, rfl, rfl⟩

/-- **C68**, a result that cannot be drawn: the same flow in a channel of 2 m. Both runs end normally and write their files,
    then the call raises, without figures and without a run-out file. -/
example (round : Nat → ℝ → ℝ) : ∃ p1 e names, sweep [1] 2 exEnv "still.json" "out" 0 1 1 (stillProc 2) = some (.ok names, p1) ∧
    sweepFull [1] 2 round exEnv "still.json" "out" "slope.txt" 0 1 1 (stillProc 2) =
      some (.error e, p1, { curves := none, runOuts := none }) := by
  obtain ⟨log0, t0, n0, w0, pl0, g0, run0⟩ := still_run 2 (by norm_num) (by norm_num) 0 (Or.inl rfl) round
  obtain ⟨log1, t1, n1, w1, pl1, g1, run1⟩ := still_run 2 (by norm_num) (by norm_num) 1 (Or.inr rfl) round
  obtain ⟨p1, names, runs, hsweep, hlogs, hruns, hres⟩ := still_sweep_runs 2 t0 t1 log0 log1 run0 run1
  have hmem : ∀ o ∈ runs, o.log = log0 ∨ o.log = log1 := by
    intro o ho
    have := List.mem_map_of_mem (f := SweepRun.log) ho
    rw [hlogs] at this
    simpa using this
  obtain ⟨o0, rest, ho⟩ : ∃ o0 rest, runs = o0 :: rest := by cases runs with | nil => cases hlogs | cons a b => exact ⟨a, b, rfl⟩
  have ho0 : o0.log = log0 := by rw [ho] at hlogs; simp only [List.map_cons, List.cons.injEq] at hlogs; exact hlogs.1
  obtain ⟨e, he⟩ := C68_one_bad_run [1] 2 round exEnv "still.json" "out" "slope.txt" 0 1 1 (stillProc 2) p1 names
    (stillConfig 3 (2 : ℕ) (.int 7)) [0, 1] (.str "example") runs hsweep rfl rfl ⟨_, rfl, rfl⟩ hruns hres (ex_distinct _ _)
    (by intro o ho h; rcases hmem o ho with h' | h' <;> rw [h'] at h <;> contradiction) o0 (by rw [ho]; simp) (by
      intro t c ht hc
      rw [ho0, w0] at ht
      injection ht with ht
      obtain rfl := Option.some.inj ht
      have := pl0.mp ⟨c, hc⟩
      omega)
  exact ⟨p1, e, names, hsweep, he⟩

/-- **C68**, empty range: "first rate 10, last rate 4, step 5". -/
example (round : Nat → ℝ → ℝ) : sweepFull [1] 3 round exEnv "still.json" "out" "slope.txt" 10 4 5 (stillProc 3) =
    some (.error .nameError, stillProc 3,
      { curves := some [], runOuts := some { path := "out/run_outs_example.csv", flowId := "example", lines := [] } }) :=
  C68_empty_sweep [1] 3 round exEnv "still.json" "out" "slope.txt" 10 4 5 (stillProc 3) _ (.str "example") "slope.txt" exLines
    rfl rfl rfl rfl rfl

/-- A run that logs nothing: gravity points upwards, the velocity is negative. -/
theorem silent_run_in (env : Env ℝ) (hslope : env.slopeFile "slope.txt" = some [⟨0, 0, 0, 0, 90⟩, ⟨0, 0, 0, 2000, 90⟩])
    (working folder : String) (p : Proc ℝ) (hp : lookup p.json (env.canon working) = some (stillConfig (-3) 3 (.int 0))) :
    runOn [1] 1 env working folder (newRunner p) = some (.ok (), { json := p.json, results := p.results, log := [] }) := by
  have hprep := still_prepare env hslope (-3) 3 (.int 0) 0 (by show Except.ok (((0 : Int) : ℝ)) = _; norm_num) []
  have hv : (exLava 1 (.kd 1 0) .ryerson).meanVelocity { exTerrainOf 0 3 with gravity := -3 }
      { crystal := 0, temp := 1000, pos := 0, time := 1, strain := 3 * 0 } = .ok (-1, -3) := by
    obtain ⟨mu, hm, _, _, hmz⟩ := long_bulk { crystal := 0, temp := 1000, pos := 0, time := 1, strain := 3 * 0 } le_rfl
      (by norm_num) (by norm_num)
    obtain ⟨t0, hy, _, _, hyz⟩ := long_ryerson { crystal := 0, temp := 1000, pos := 0, time := 1, strain := 3 * 0 } le_rfl
      (by norm_num)
    rw [hmz rfl] at hm
    rw [hyz rfl] at hy
    rw [meanVelocity_ok_iff]
    refine ⟨0, -3, 1, hy, ?_, hm, by norm_num, by norm_num, by norm_num [exTerrainOf], ?_, by norm_num [exTerrainOf]⟩
    · unfold Lava.basalStress
      have hs : ({ exTerrainOf 0 3 with gravity := -3 } : Terrain ℝ).slope 0 = .ok (Real.pi / 2) := exTerrainOf_slope 0 3 0
      rw [exLava_density, hs, ok_bind, pure_ok_iff]
      simp [exTerrainOf]
    · norm_num [binghamVelocity, exTerrainOf]
  have hstep : ∃ w', singleStep (stillPrepared (-3) 3 (.int 0) 0 []).integrator (stillPrepared (-3) 3 (.int 0) 0 []).world =
      (.ok (), w') ∧ w'.finished = true ∧ w'.log = [] := by
    unfold singleStep
    have gl : (stillPrepared (-3) 3 (.int 0) 0 []).integrator.models.lava = exLava 1 (.kd 1 0) .ryerson := rfl
    rw [gl, PyM.bind_of_ok (meanVelocityM_forward (w := (stillPrepared (-3) 3 (.int 0) 0 []).world) hv)]
    have : leB (-1 : ℝ) 0.0 = true := by rw [leB_real]; norm_num
    rw [this]
    exact ⟨_, rfl, rfl, rfl⟩
  obtain ⟨w', h1, h2, h3⟩ := hstep
  have hsim : simulateOn [1] 1 (stillPrepared (-3) 3 (.int 0) 0 []).integrator (stillPrepared (-3) 3 (.int 0) 0 []).world =
      some (.ok (), w') := by
    rw [simulate_noSearch]
    · exact runLoop_one _ _ _ rfl h1 h2
    · rw [eqB_real]; show (0 : ℝ) = 0.0; norm_num
  obtain ⟨p', h5, h6, h7, h8, _⟩ := C04_run_writes (fun c => beq_self_eq_true c) [1] 1 env working folder p _ _ w' hp hprep hsim
  rw [h5]
  obtain ⟨j, rs, l⟩ := p'
  simp only at h6 h7 h8
  rw [h6, h7, h8 h3, h3]

theorem silent_run (working folder : String) (p : Proc ℝ)
    (hp : lookup p.json working = some (stillConfig (-3) 3 (.int 0))) :
    runOn [1] 1 exEnv working folder (newRunner p) = some (.ok (), { json := p.json, results := p.results, log := [] }) :=
  silent_run_in exEnv rfl working folder p hp

/-- A process with that configuration and the results `old` of earlier runs. -/
noncomputable def silentProc (old : List (String × CsvTable (Cell ℝ))) : Proc ℝ :=
  { json := [("still.json", stillConfig (-3) 3 (.int 7))], results := old, log := [] }

/-- **C68**, a run that logs nothing, with the result `t` of an earlier run in its place or without. -/
theorem silent_sweep (old : List (String × CsvTable (Cell ℝ))) :
    sweep [1] 1 exEnv "still.json" "out" 0 0 1 (silentProc old) =
      some (.ok ["out/results_flowgo_example_0m3s.csv"],
        ⟨[(workingFile "still.json" "out", stillConfig (-3) 3 (.int 0)), ("still.json", stillConfig (-3) 3 (.int 7))],
          old, []⟩) := by
  have hlv : ∀ rate, (stillConfig (-3) 3 rate).get "lava_name" = .ok (.str "example") := fun _ => rfl
  have hset : (stillConfig (-3) 3 (.int 7)).set "effusion_rate_init" (.int 0) = .ok (stillConfig (-3) 3 (.int 0)) := rfl
  have h1 : lookup (silentProc old).json (exEnv.canon "still.json") = some (stillConfig (-3) 3 (.int 7)) := rfl
  have h2 : sweepRates 0 0 1 = .ok [0] := rfl
  unfold sweep
  rw [h1]; dsimp only; rw [h2]; dsimp only
  unfold sweepLoop
  rw [hset]; dsimp only
  rw [silent_run _ _ _ (by rw [writeFile, lookup_cons]; exact if_pos rfl)]; dsimp only
  rw [hlv]; dsimp only
  rfl

example (old : List (String × CsvTable (Cell ℝ))) (round : Nat → ℝ → ℝ) :
    (lookup old "out/results_flowgo_example_0m3s.csv" = none →
      ∃ e p1, sweepFull [1] 1 round exEnv "still.json" "out" "slope.txt" 0 0 1 (silentProc old) =
        some (.error e, p1, { curves := none, runOuts := none })) := by
  intro hnone
  have hset : (stillConfig (-3) 3 (.int 7)).set "effusion_rate_init" (.int 0) = .ok (stillConfig (-3) 3 (.int 0)) := rfl
  have hruns : List.Forall₂ (IsSweepRun [1] 1 exEnv (stillConfig (-3) 3 (.int 7)) (workingFile "still.json" "out") "out") [0]
      [⟨stillConfig (-3) 3 (.int 0), [], []⟩] := by
    obtain ⟨a, b⟩ := set_spec _ _ _ _ hset
    refine List.Forall₂.cons ⟨⟨a, b⟩, ?_⟩ List.Forall₂.nil
    unfold freshOutcome
    have := silent_run (workingFile "still.json" "out") "out" { json := [(exEnv.canon (workingFile "still.json" "out"), stillConfig (-3) 3 (.int 0))], results := [], log := [] }
      (by rw [lookup_cons]; exact if_pos rfl)
    have hn : ∀ p : Proc ℝ, p.log = [] → newRunner p = p := fun p h => by cases p; simp only at h; subst h; rfl
    rw [hn _ rfl] at this
    rw [this]; rfl
  obtain ⟨e, he⟩ := (C68_silent_run [1] 1 round exEnv "still.json" "out" "slope.txt" 0 0 1 _ _ _ (stillConfig (-3) 3 (.int 7)) [0]
    (.str "example") _ (silent_sweep old) rfl rfl ⟨_, rfl, rfl⟩ hruns rfl (ex_distinct _ _) 0 0 _ rfl rfl rfl).2 hnone
  exact ⟨e, _, he⟩

end PyFlowGo
