import Verif.Props.HarsherConfig
import Verif.Props.StrongerTemplate
/-
  C122 on configuration files: the template with rain as its only heat loss, and the template with rain, radiation, conduction and convection.
-/
set_option linter.unusedSectionVars false
namespace PyFlowGo
open Spec

/-- The models of the template, and rain. -/
def stormChoice : Choice := { templateChoice with rain := "yes" }

noncomputable def stormConfig (rate : Json ℝ) : Json ℝ := exConfigR rate templateNum stormChoice

theorem storm_number (env : Env ℝ) (rate : Json ℝ) (e : Req) (he : e ∈ allReq) :
    NumberAt env (stormConfig rate) e.1 e.2 (templateNum e.1 e.2) := exConfig_number env _ _ e he

theorem storm_holds (env : Env ℝ) (rate : Json ℝ) (sec key : String) (he : (sec, key) ∈ allReq) (p : ℝ → Prop) (h : p (templateNum sec key)) :
    EntryHolds env (stormConfig rate) sec key p := by
  intro x hx
  rw [number_unique hx (storm_number env rate (sec, key) he)]
  exact h

/-- The numbers make physical sense. -/
theorem storm_physical (env : Env ℝ) (rate : Json ℝ) : Physical env (stormConfig rate) where
  step := by
    intro v x h hx
    have := topEntry_unique h ⟨_, rfl, rfl⟩
    rw [this] at hx
    have : (10 : ℝ) = x := Except.ok.inj hx
    rw [← this]; norm_num
  depth := storm_holds _ _ _ _ (by decide) _ (by norm_num [templateNum])
  width := storm_holds _ _ _ _ (by decide) _ (by norm_num [templateNum])
  gravity := storm_holds _ _ _ _ (by decide) _ (by norm_num [templateNum])
  density := storm_holds _ _ _ _ (by decide) _ (by norm_num [templateNum])
  vesicles := storm_holds _ _ _ _ (by decide) _ (by norm_num [templateNum])
  crystals := storm_holds _ _ _ _ (by decide) _ (by norm_num [templateNum])
  latent := storm_holds _ _ _ _ (by decide) _ (by norm_num [templateNum])
  grown := storm_holds _ _ _ _ (by decide) _ (by norm_num [templateNum])
  solidus := storm_holds _ _ _ _ (by decide) _ (storm_holds _ _ _ _ (by decide) _ (by norm_num [templateNum]))
  viscosity := storm_holds _ _ _ _ (by decide) _ (by norm_num [templateNum])
  shaw := storm_holds _ _ _ _ (by decide) _ (by norm_num [templateNum])
  vft := storm_holds _ _ _ _ (by decide) _ (by norm_num [templateNum])
  vftc := storm_holds _ _ _ _ (by decide) _ (storm_holds _ _ _ _ (by decide) _ (by norm_num [templateNum]))
  alpha := storm_holds _ _ _ _ (by decide) _ (by norm_num [templateNum])
  cover := storm_holds _ _ _ _ (by decide) _ (by norm_num [templateNum])
  air := storm_holds _ _ _ _ (by decide) _ (by norm_num [templateNum])
  crust := storm_holds _ _ _ _ (by decide) _ ⟨by norm_num [templateNum], storm_holds _ _ _ _ (by decide) _ (by norm_num [templateNum])⟩
  molten := storm_holds _ _ _ _ (by decide) _ ⟨by norm_num [templateNum], storm_holds _ _ _ _ (by decide) _
    ⟨by norm_num [templateNum], storm_holds _ _ _ _ (by decide) _ (by norm_num [templateNum])⟩⟩
  ground := storm_holds _ _ _ _ (by decide) _ (by norm_num [templateNum])

noncomputable def stormModels : Models ℝ := { templateModels with fluxes := templateModels.fluxes ++ [.rain 7.93e-8 958 2.8e6] }

theorem storm_models (env : Env ℝ) (rate : Json ℝ) : factory env (stormConfig rate) = .ok stormModels := by
  have N := storm_number env rate
  refine (C55_models_come_from_the_configuration _ _ _).mpr ⟨stormChoice, exConfig_selects _ _, ?_, ?_, ?_, ?_, ?_, ?_⟩
  · exact ⟨_, _, _, _, N ("lava_state", "crystal_fraction") (by decide),
      N ("crystals_parameters", "crystals_grown_during_cooling") (by decide),
      N ("crystals_parameters", "solid_temperature") (by decide),
      N ("eruption_condition", "eruption_temperature") (by decide), rfl⟩
  · exact ⟨N ("convection_parameters", "air_temperature") (by decide), N ("convection_parameters", "wind_speed") (by decide),
      N ("convection_parameters", "ch_air") (by decide), N ("convection_parameters", "air_density") (by decide),
      N ("convection_parameters", "air_specific_heat_capacity") (by decide)⟩
  · exact ⟨⟨_, _, _, N ("melt_viscosity_parameters", "a_vft") (by decide), N ("melt_viscosity_parameters", "b_vft") (by decide),
        N ("melt_viscosity_parameters", "c_vft") (by decide), rfl⟩,
      ⟨_, N ("lava_state", "vesicle_fraction") (by decide), rfl⟩, rfl, rfl,
      ⟨_, N ("eruption_condition", "eruption_temperature") (by decide), rfl⟩,
      N ("eruption_condition", "eruption_temperature") (by decide), N ("thermal_parameters", "buffer") (by decide),
      N ("crystals_parameters", "latent_heat_of_crystallization") (by decide), N ("lava_state", "density_dre") (by decide),
      _, N ("relative_viscosity_parameters", "max_packing") (by decide)⟩
  · exact ⟨_, _, N ("thermal_parameters", "alpha") (by decide), N ("thermal_parameters", "crust_cover_fraction") (by decide), rfl⟩
  · exact ⟨_, N ("thermal_parameters", "crust_temperature") (by decide), rfl⟩
  · exact ⟨[.radBasic 5.67e-8 0.95], [.conduction 773.15 19], [.convection], [.rain 7.93e-8 958 2.8e6], [], [], rfl,
      ⟨_, _, N ("radiation_parameters", "stefan-boltzmann_sigma") (by decide), N ("radiation_parameters", "emissivity_epsilon") (by decide), rfl⟩,
      Or.inl ⟨rfl, _, ⟨_, _, N ("conduction_parameters", "basal_temperature") (by decide),
        N ("conduction_parameters", "core_base_distance") (by decide), rfl⟩, rfl⟩, Or.inl ⟨rfl, _, rfl, rfl⟩,
      Or.inl ⟨rfl, _, ⟨_, _, _, N ("rain_parameters", "rainfall_rate") (by decide), N ("rain_parameters", "density_water") (by decide),
        N ("rain_parameters", "latent_heat_vaporization") (by decide), rfl⟩, rfl⟩,
      Or.inr ⟨rfl, rfl⟩, Or.inr ⟨rfl, rfl⟩, fun h => absurd (show ("no" : String) = "yes" from h) (by decide)⟩

noncomputable def stormPrepared (rate : Json ℝ) (e : ℝ) (rows : List (SlopeLine ℝ)) : Prepared ℝ :=
  { templatePrepared rate e rows with integrator := { dx := 10, models := stormModels, massConservation := false } }

theorem storm_prepare (env : Env ℝ) (rate : Json ℝ) (e : ℝ) (hrate : rate.toFloat env = .ok e) (rows : List (SlopeLine ℝ))
    (hslope : env.slopeFile "slope.txt" = some rows) (h2 : 2 ≤ (usableRows rows).length)
    (hasc : (usableRows rows).Pairwise fun a b => a.dist < b.dist) :
    prepare env (stormConfig rate) [] = .ok (stormPrepared rate e rows) := by
  have N := storm_number env rate
  rw [C55_run_starts_from_the_configuration]
  refine ⟨⟨⟨_, rfl, rfl⟩, ⟨_, rfl, rfl⟩, ⟨_, rfl, rfl⟩, ⟨_, ⟨_, rfl, rfl⟩, rfl⟩, _, ⟨_, rfl, rfl⟩, rfl⟩,
    ⟨templateTerrain e none, "slope.txt", rows,
      ⟨⟨_, ⟨_, rfl, rfl⟩, hrate⟩, N ("terrain_conditions", "depth") (by decide), N ("terrain_conditions", "width") (by decide),
        N ("terrain_conditions", "gravity") (by decide), N ("terrain_conditions", "max_channel_length") (by decide),
        ⟨_, ⟨_, _, rfl, rfl, rfl⟩, ?_⟩, fun h => ?_, fun _ => rfl, rfl⟩, rfl, Or.inl rfl, hslope, ?_⟩,
    storm_models env rate, rfl, rfl, N ("lava_state", "position") (by decide),
    N ("lava_state", "time") (by decide), N ("lava_state", "crystal_fraction") (by decide),
    N ("eruption_condition", "eruption_temperature") (by decide), ?_, ?_, rfl, rfl, ?_, rfl, rfl, rfl⟩
  · simp [templateTerrain]
  · simp [templateTerrain] at h
  · exact (C48_read_slope _ _ _).mpr ⟨h2, hasc, fun h => by simp [templateTerrain] at h, rfl⟩
  · show (1.4 : ℝ) ≠ 0; norm_num
  · show (4.5 : ℝ) ≠ 0; norm_num
  · show (0.0 : ℝ) = 0; norm_num


/-- The two configurations differ in the choice of heat fluxes only. -/
theorem storm_same (r : Json ℝ) : SameButSurroundings (rainConfig r) (stormConfig r) := by
  have top : ∀ k, k ≠ "heat_budget_models" → ∀ v, TopEntry (rainConfig r) k v ↔ TopEntry (stormConfig r) k v := by
    intro k hk v
    constructor
    all_goals
      rintro ⟨top, e, h⟩
      cases e
      refine ⟨_, rfl, ?_⟩
      rw [← h]
      simp only [lookup_cons_eq, if_neg (Ne.symm hk)]
      rfl
  refine ⟨fun sec key v h => ?_, fun k hk v => top k ?_ v⟩
  · have hsec : sec ≠ "heat_budget_models" := by
      rintro rfl
      simp [surroundings] at h
    constructor
    · rintro ⟨tp, inner, e, h1, h2⟩
      obtain ⟨tp', e', h1'⟩ := (top sec hsec _).mp ⟨tp, e, h1⟩
      exact ⟨tp', inner, e', h1', h2⟩
    · rintro ⟨tp, inner, e, h1, h2⟩
      obtain ⟨tp', e', h1'⟩ := (top sec hsec _).mpr ⟨tp, e, h1⟩
      exact ⟨tp', inner, e', h1', h2⟩
  · rintro rfl
    revert hk
    decide

/-- **C122** on configuration files: the template with rain as its only heat loss, and the same in a storm: with radiation, conduction and convection as well. Both runs end normally,
    and the second is nowhere hotter or faster than the first and has no complete row that the first has not. -/
example : ∃ (r : ℝ) (q q' : Proc ℝ), 0 < r ∧
    run 3000 rainEnv "rain.json" "out" ⟨[("rain.json", rainConfig (.num r))], [], []⟩ = some (.ok (), q) ∧
    run 3000 rainEnv "rain.json" "out" ⟨[("rain.json", stormConfig (.num r))], [], []⟩ = some (.ok (), q') ∧
    CompleteRow q.log 0 ∧ (∀ x, CompleteRow q'.log x → CompleteRow q.log x) ∧
    (∀ x T T', BothShow q.log q'.log "core_temperature" x T T' → T' ≤ T) ∧
    (∀ x v v', BothShow q.log q'.log "mean_velocity" x v v' → v' ≤ v) := by
  obtain ⟨r, hr, h⟩ := rain_run
  obtain ⟨hprep, hg, hv, q, D, a1, a2, a3, a4, a5, a6⟩ := h r le_rfl
  have h2 : 2 ≤ (usableRows templateRows).length := by rw [template_usable]; simp
  have hasc : (usableRows templateRows).Pairwise fun a b => a.dist < b.dist := by rw [template_usable]; simp
  have hprep' := storm_prepare rainEnv (.num r) r rfl templateRows rfl h2 hasc
  have hin : ∃ r ∈ usableRows templateRows, ∃ r' ∈ usableRows templateRows, r.dist ≤ (0 : ℝ) ∧ (0 : ℝ) ≤ r'.dist := by
    rw [template_usable]; exact ⟨_, List.mem_cons_self, _, List.mem_cons_self, le_rfl, le_rfl⟩
  have hsteep : ∀ q ∈ usableRows templateRows, q.slopeDeg < 180 := by
    rw [template_usable]
    intro q hq
    simp only [List.mem_cons, List.not_mem_nil, or_false] at hq
    rcases hq with rfl | rfl <;> norm_num
  obtain ⟨_, hg'⟩ := C117_template_sensible _ _ _ _ hprep' stormChoice (exConfig_selects _ _) ⟨rfl, rfl, rfl, rfl, rfl, rfl⟩ (storm_physical _ _)
  obtain ⟨q', b1⟩ := C117_template_completes rainEnv "rain.json" "out" ⟨[("rain.json", stormConfig (.num r))], [], []⟩ _ _ (by show lookup [("rain.json", _)] "rain.json" = _; rw [lookup_cons_eq]; exact if_pos rfl) hprep'
    stormChoice (exConfig_selects _ _) ⟨rfl, rfl, rfl, rfl, rfl, rfl⟩ (storm_physical _ _) "slope.txt" templateRows (Or.inl rfl) rfl hin hsteep (fun h => by cases h) 3000 (by norm_num)
    (by show ((30000 : ℝ) - 0) / 10 ≤ _; norm_num)
  have hev : Everyday (rainPrepared (.num r) r templateRows).integrator 0 (0.896 / (1387.15 - 1237.15)) :=
    template_everyday rainModels rfl (by
      intro f hf
      have hf : f ∈ [(Flux.rain 7.93e-8 958 2.8e6 : Flux ℝ)] := hf
      rw [List.mem_singleton.mp hf]
      show (0 : ℝ) ≤ 7.93e-8 * 958 * 2.8e6
      norm_num) false 10 0
  have hev' : Everyday (stormPrepared (.num r) r templateRows).integrator 0 (0.896 / (1387.15 - 1237.15)) :=
    template_everyday stormModels rfl (by
      intro f hf
      have hf : f ∈ [(Flux.radBasic 5.67e-8 0.95 : Flux ℝ), .conduction 773.15 19, .convection, .rain 7.93e-8 958 2.8e6] := hf
      simp only [List.mem_cons, List.not_mem_nil, or_false] at hf
      rcases hf with rfl | rfl | rfl | rfl
      · show (0 : ℝ) ≤ 5.67e-8 * 0.95; norm_num
      · refine ⟨by norm_num, ?_⟩
        show (773.15 : ℝ) ≤ 1237.15
        norm_num
      · show (0 : ℝ) ≤ stormModels.air.convCoef
        norm_num [stormModels, templateModels, Air.convCoef]
      · show (0 : ℝ) ≤ 7.93e-8 * 958 * 2.8e6; norm_num) false 10 0
  have hh : Harsher rainModels stormModels := by
    refine ⟨le_rfl, le_rfl, fun s Tc h => ⟨Tc, h, le_rfl⟩, fun _ _ _ => le_rfl, [.rain 7.93e-8 958 2.8e6], templateModels.fluxes, List.perm_append_comm, ?_⟩
    exact .cons (le_refl ((7.93e-8 : ℝ) * 958 * 2.8e6)) .nil
  obtain ⟨c1, c2, c3, c4⟩ := C122_run 3000 3000 rainEnv "rain.json" "out" _ _ (rainConfig (.num r)) (stormConfig (.num r))
    (by rw [lookup_cons_eq]; exact if_pos rfl) (by show lookup [("rain.json", _)] "rain.json" = _; rw [lookup_cons_eq]; exact if_pos rfl) rfl rfl (storm_same _) _ _ hprep hprep' hg hg' hv _ hev hev' hh hr.ne'
    (fun h => by cases h) q q' a1 b1 D a2 a4 a5
  exact ⟨r, q, q', hr, a1, b1, a3, c4 a6, c1, c3⟩

end PyFlowGo
