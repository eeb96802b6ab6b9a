import Verif.Props.KinderVent
import Verif.Props.StrongerTemplate
/-
  C126: examples.
-/
set_option linter.unusedSectionVars false
namespace PyFlowGo
open Spec

theorem rain_sine_pos : 0 < Real.sin (degToRad 12) := by
  have := rain_stress_ge
  by_contra h
  have h : Real.sin (degToRad 12) ≤ 0 := not_lt.mp h
  have : 2970 * (1 - 0.64) * 9.81 * Real.sin (degToRad 12) ≤ 0 := mul_nonpos_of_nonneg_of_nonpos (by norm_num) h
  linarith

theorem rain_slope_at_vent {rate : Json ℝ} {e y : ℝ} (h : (rainPrepared rate e templateRows).world.terrain.slope 0 = .ok y) : y = degToRad 12 := by
  have k := rain_vent_slope rate e (rainPrepared rate e templateRows).world.terrain.depth
  have : (rainPrepared rate e templateRows).world.terrain.slope 0 = .ok (degToRad 12) := k
  rw [this] at h
  exact (Except.ok.inj h).symm

/-- **C126** on configuration files: the template with rain as its only heat loss, with one cubic metre per second less. -/
example : ∃ (r : ℝ) (q q' : Proc ℝ) (D D' : ℝ), 0 < r ∧
    run 3000 rainEnv "rain.json" "out" ⟨[("rain.json", rainConfig (.num (r + 1)))], [], []⟩ = some (.ok (), q) ∧
    run 3000 rainEnv "rain.json" "out" ⟨[("rain.json", rainConfig (.num r))], [], []⟩ = some (.ok (), q') ∧
    loggedNum q.log 0 "channel_depth" = some D ∧ loggedNum q'.log 0 "channel_depth" = some D' ∧ D' ≤ D := by
  obtain ⟨r, hr, h⟩ := rain_run
  obtain ⟨hprep', hg', hv', q', D', b1, b2, b3, b4, _⟩ := h r le_rfl
  obtain ⟨hprep, hg, hv, q, D, a1, a2, a3, a4, _⟩ := h (r + 1) (by linarith)
  have hn : NoStrainRate rainModels.lava := by
    refine ⟨fun _ _ _ _ _ _ _ _ h => (by cases h), fun _ h => (by cases h), fun _ _ _ _ _ h => (by cases h)⟩
  have hk : KinderVent (rainPrepared (.num (r + 1)) (r + 1) templateRows).world (rainPrepared (.num r) r templateRows).world := by
    refine ⟨rfl, le_rfl, le_rfl, le_rfl, ⟨?_, le_rfl⟩, ?_, ?_⟩
    · show (0 : ℝ) < 9.81
      norm_num
    · intro y y' h1 h2
      rw [rain_slope_at_vent h1, rain_slope_at_vent h2]
      exact ⟨rain_sine_pos, le_rfl⟩
    · show r ≤ r + 1
      linarith
  exact ⟨r, q, q', D, D', hr, a1, b1, a2, b2,
    C126_run 3000 3000 rainEnv "rain.json" "rain.json" "out" "out" _ _ (rainConfig (.num (r + 1))) (rainConfig (.num r))
      (by rw [lookup_cons_eq]; exact if_pos rfl) (by rw [lookup_cons_eq]; exact if_pos rfl) rfl rfl _ _ hprep hprep' rfl hg'.step hg hn hv hv'
      (by show r + 1 ≠ 0; linarith) (by show r ≠ 0; exact hr.ne') hk q q' a1 b1 D D' a2 b2 a4⟩

/-- **C126**, the search: the same vent and the same rate; then with a channel twice as wide, twice the gravity, lava that is a kelvin hotter and half the crystals. -/
example : ∃ (r : ℝ) (w w' w1 w1' : World ℝ), 0 < r ∧ w.terrain.effusionRateInit = r ∧ w'.terrain.effusionRateInit = r ∧ w'.terrain.width = 2 * w.terrain.width ∧
    w'.terrain.gravity = 2 * w.terrain.gravity ∧ w'.st.temp = w.st.temp + 1 ∧ w'.st.crystal = w.st.crystal / 2 ∧
    initEffusionRate rainModels.lava w = (.ok (), w1) ∧ initEffusionRate rainModels.lava w' = (.ok (), w1') ∧ w1'.terrain.depth ≤ w1.terrain.depth := by
  obtain ⟨r, hr, h⟩ := rain_run
  obtain ⟨hprep, hg, hv, q, D, a1, a2, a3, a4, _⟩ := h r le_rfl
  have hn : NoStrainRate rainModels.lava := by
    refine ⟨fun _ _ _ _ _ _ _ _ h => (by cases h), fun _ h => (by cases h), fun _ _ _ _ _ h => (by cases h)⟩
  obtain ⟨_, _, _, _, _, _, f7, ⟨sz, f8, f8'⟩, _, _⟩ := prepared_facts hprep
  obtain ⟨pr1, w1, _, _, hp, hi, hw1, -⟩ := run_depth (by rw [lookup_cons_eq]; exact if_pos rfl) rfl f7 f8 f8' hg.step a1 a2
  have hp' : prepare rainEnv (rainConfig (.num r)) [] = .ok pr1 := hp
  rw [hprep] at hp'
  obtain rfl := Except.ok.inj hp'
  let w := (rainPrepared (.num r) r templateRows).world
  let w' : World ℝ := { w with terrain := { w.terrain with width := 2 * w.terrain.width, gravity := 2 * w.terrain.gravity }, st := { w.st with temp := w.st.temp + 1, crystal := w.st.crystal / 2 } }
  have hs : ∀ x, w'.terrain.slope x = w.terrain.slope x := fun _ => rfl
  have hg' : Sensible (rainPrepared (.num r) r templateRows).integrator w'.terrain 0 :=
    { hg with gravity := mul_ne_zero two_ne_zero hg.gravity, width := mul_pos two_pos hg.width, slopes := hg.slopes }
  have hv' : AtVent (rainPrepared (.num r) r templateRows).integrator w' := by
    refine ⟨?_, ?_, ?_, ?_, hv.depth, hv.ground⟩
    · show (0 : ℝ) ≤ 0.104 / 2
      norm_num
    · have := hv.hot
      show _ < w.st.temp + 1
      have : (rainPrepared (.num r) r templateRows).integrator.models.cryst.solidTemperature < w.st.temp := hv.hot
      linarith
    · show RelModel.er.notCompatible w'.st = _
      unfold RelModel.notCompatible
      dsimp only
      rw [div_of_ne (by norm_num), ok_bind]
      congr 1
      rw [← Bool.not_eq_true, leB_real, not_le, one_lit, lt_div_iff₀ (by norm_num)]
      show (0.104 : ℝ) / 2 * _ < 1
      norm_num
    · exact fun h => h
  have hk : KinderVent w w' := by
    refine ⟨rfl, ?_, ?_, ?_, ⟨?_, ?_⟩, ?_, le_rfl⟩
    · show w.st.temp ≤ w.st.temp + 1
      linarith
    · show (0.104 : ℝ) / 2 ≤ 0.104
      norm_num
    · show (4.5 : ℝ) ≤ 2 * 4.5
      norm_num
    · show (0 : ℝ) < 9.81
      norm_num
    · show (9.81 : ℝ) ≤ 2 * 9.81
      norm_num
    · intro y y' h1 h2
      rw [rain_slope_at_vent h1, rain_slope_at_vent (rate := .num r) (e := r) h2]
      exact ⟨rain_sine_pos, le_rfl⟩
  obtain ⟨w1', hi', _⟩ := C117_depth_search w' hg' le_rfl hv'
  have ht : w1.terrain = { w.terrain with depth := D } := by
    have hi2 := hi
    rw [search_of_rate _ _ _ hr.ne'] at hi2
    obtain ⟨k, v, y, _, _, _, _, e⟩ := search_found _ (noStrain_independent hn) _ grid_nonempty _ _ hi2
    rw [← hw1, e]
  refine ⟨r, w, w', w1, w1', hr, rfl, rfl, rfl, rfl, rfl, rfl, hi, hi', ?_⟩
  exact C126_search depthGrid grid_nonempty C97_program_depths.2 grid_pos _ _ (noStrain_independent hn) (noStrain_independent hn) w w' hr.ne' hr.ne'
    (C126_kinder_is_easier _ _ rfl w w' hg hn hv hv' hk) w1 w1' hi hi' (by rw [ht]; exact a4)

end PyFlowGo
