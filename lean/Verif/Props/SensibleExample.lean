import Verif.Props.SensibleConfig
import Verif.Props.SweepFullExample
/-
  C117 on the numbers of resource/template.json, and a flow that raises at the packing limit.
-/
set_option linter.unusedSectionVars false
namespace PyFlowGo
open Spec

/-- The numbers of resource/template.json. -/
noncomputable def templateNum (_ : String) (key : String) : ℝ :=
  match key with
  | "step_size" => 10
  | "width" => 4.5
  | "depth" => 1.4
  | "gravity" => 9.81
  | "max_channel_length" => 30000
  | "eruption_temperature" => 1387.15
  | "viscosity_eruption" => 1000
  | "position" => 0
  | "time" => 1
  | "crystal_fraction" => 0.104
  | "density_dre" => 2970
  | "vesicle_fraction" => 0.64
  | "liquidus_temperature" => 0
  | "stefan-boltzmann_sigma" => 5.67e-8
  | "emissivity_epsilon" => 0.95
  | "basal_temperature" => 773.15
  | "core_base_distance" => 19
  | "rainfall_rate" => 7.93e-8
  | "density_water" => 958
  | "latent_heat_vaporization" => 2.8e6
  | "wind_speed" => 5
  | "ch_air" => 0.0036
  | "air_temperature" => 293.15
  | "air_density" => 0.4412
  | "air_specific_heat_capacity" => 1099
  | "buffer" => 140
  | "crust_cover_fraction" => 1
  | "alpha" => -0.00756
  | "crust_temperature" => 773.15
  | "shaw_slope" => 2.36
  | "a_vft" => -4.52
  | "b_vft" => 5558
  | "c_vft" => 582.9
  | "crystals_grown_during_cooling" => 0.896
  | "solid_temperature" => 1237.15
  | "latent_heat_of_crystallization" => 350000
  | "max_packing" => 0.641
  | "einstein_coef" => 3.27
  | "strain_rate" => 1
  | _ => 1

/-- The models of resource/template.json. -/
def templateChoice : Choice :=
  { exChoice with melt := "vft", yld := "basic", radiation := "basic", conduction := "yes", convection := "yes", rain := "no" }

noncomputable def templateConfig (rate : Json ℝ) : Json ℝ := exConfigR rate templateNum templateChoice

theorem template_number (env : Env ℝ) (rate : Json ℝ) (e : Req) (he : e ∈ allReq) :
    NumberAt env (templateConfig rate) e.1 e.2 (templateNum e.1 e.2) := exConfig_number env _ _ e he

theorem template_holds (env : Env ℝ) (rate : Json ℝ) (sec key : String) (he : (sec, key) ∈ allReq) (p : ℝ → Prop) (h : p (templateNum sec key)) :
    EntryHolds env (templateConfig rate) sec key p := by
  intro x hx
  rw [number_unique hx (template_number env rate (sec, key) he)]
  exact h

/-- The template's numbers make physical sense. -/
theorem template_physical (env : Env ℝ) (rate : Json ℝ) : Physical env (templateConfig rate) where
  step := by
    intro v x h hx
    have := topEntry_unique h ⟨_, rfl, rfl⟩
    rw [this] at hx
    have : (10 : ℝ) = x := Except.ok.inj hx
    rw [← this]; norm_num
  depth := template_holds _ _ _ _ (by decide) _ (by norm_num [templateNum])
  width := template_holds _ _ _ _ (by decide) _ (by norm_num [templateNum])
  gravity := template_holds _ _ _ _ (by decide) _ (by norm_num [templateNum])
  density := template_holds _ _ _ _ (by decide) _ (by norm_num [templateNum])
  vesicles := template_holds _ _ _ _ (by decide) _ (by norm_num [templateNum])
  crystals := template_holds _ _ _ _ (by decide) _ (by norm_num [templateNum])
  latent := template_holds _ _ _ _ (by decide) _ (by norm_num [templateNum])
  grown := template_holds _ _ _ _ (by decide) _ (by norm_num [templateNum])
  solidus := template_holds _ _ _ _ (by decide) _ (template_holds _ _ _ _ (by decide) _ (by norm_num [templateNum]))
  viscosity := template_holds _ _ _ _ (by decide) _ (by norm_num [templateNum])
  shaw := template_holds _ _ _ _ (by decide) _ (by norm_num [templateNum])
  vft := template_holds _ _ _ _ (by decide) _ (by norm_num [templateNum])
  vftc := template_holds _ _ _ _ (by decide) _ (template_holds _ _ _ _ (by decide) _ (by norm_num [templateNum]))
  alpha := template_holds _ _ _ _ (by decide) _ (by norm_num [templateNum])
  cover := template_holds _ _ _ _ (by decide) _ (by norm_num [templateNum])
  air := template_holds _ _ _ _ (by decide) _ (by norm_num [templateNum])
  crust := template_holds _ _ _ _ (by decide) _ ⟨by norm_num [templateNum], template_holds _ _ _ _ (by decide) _ (by norm_num [templateNum])⟩
  molten := template_holds _ _ _ _ (by decide) _ ⟨by norm_num [templateNum], template_holds _ _ _ _ (by decide) _
    ⟨by norm_num [templateNum], template_holds _ _ _ _ (by decide) _ (by norm_num [templateNum])⟩⟩
  ground := template_holds _ _ _ _ (by decide) _ (by norm_num [templateNum])

/-- The models of the template. -/
noncomputable def templateModels : Models ℝ :=
  { lava := { eruptionT := 1387.15, buffer := 140, latentHeat := 350000, densityDre := 2970, melt := .vft (-4.52) 5558 582.9, rel := .er,
              bub := .no, yld := .basic 1387.15, ves := .constant 0.64 }
    air := { temp := 293.15, windSpeed := 5, ch := 0.0036, rho := 0.4412, cp := 1099 }
    crust := .constant 773.15
    cover := .basic (-0.00756) 1
    cryst := .basic 0.104 0.896 1237.15 1387.15
    fluxes := [.radBasic 5.67e-8 0.95, .conduction 773.15 19, .convection] }

theorem template_models (env : Env ℝ) (rate : Json ℝ) : factory env (templateConfig rate) = .ok templateModels := by
  have N := template_number env rate
  refine (C55_models_come_from_the_configuration _ _ _).mpr ⟨templateChoice, exConfig_selects _ _, ?_, ?_, ?_, ?_, ?_, ?_⟩
  · exact ⟨_, _, _, _, N ("lava_state", "crystal_fraction") (by decide),
      N ("crystals_parameters", "crystals_grown_during_cooling") (by decide),
      N ("crystals_parameters", "solid_temperature") (by decide),
      N ("eruption_condition", "eruption_temperature") (by decide), rfl⟩
  · exact ⟨N ("convection_parameters", "air_temperature") (by decide), N ("convection_parameters", "wind_speed") (by decide),
      N ("convection_parameters", "ch_air") (by decide), N ("convection_parameters", "air_density") (by decide),
      N ("convection_parameters", "air_specific_heat_capacity") (by decide)⟩
  · exact ⟨⟨_, _, _, N ("melt_viscosity_parameters", "a_vft") (by decide), N ("melt_viscosity_parameters", "b_vft") (by decide),
        N ("melt_viscosity_parameters", "c_vft") (by decide), rfl⟩,
      ⟨_, N ("lava_state", "vesicle_fraction") (by decide), rfl⟩, rfl, rfl,
      ⟨_, N ("eruption_condition", "eruption_temperature") (by decide), rfl⟩,
      N ("eruption_condition", "eruption_temperature") (by decide), N ("thermal_parameters", "buffer") (by decide),
      N ("crystals_parameters", "latent_heat_of_crystallization") (by decide), N ("lava_state", "density_dre") (by decide),
      _, N ("relative_viscosity_parameters", "max_packing") (by decide)⟩
  · exact ⟨_, _, N ("thermal_parameters", "alpha") (by decide), N ("thermal_parameters", "crust_cover_fraction") (by decide), rfl⟩
  · exact ⟨_, N ("thermal_parameters", "crust_temperature") (by decide), rfl⟩
  · exact ⟨[.radBasic 5.67e-8 0.95], [.conduction 773.15 19], [.convection], [], [], [], rfl,
      ⟨_, _, N ("radiation_parameters", "stefan-boltzmann_sigma") (by decide), N ("radiation_parameters", "emissivity_epsilon") (by decide), rfl⟩,
      Or.inl ⟨rfl, _, ⟨_, _, N ("conduction_parameters", "basal_temperature") (by decide),
        N ("conduction_parameters", "core_base_distance") (by decide), rfl⟩, rfl⟩, Or.inl ⟨rfl, _, rfl, rfl⟩,
      Or.inr ⟨rfl, rfl⟩, Or.inr ⟨rfl, rfl⟩, Or.inr ⟨rfl, rfl⟩, fun h => absurd (show ("no" : String) = "yes" from h) (by decide)⟩

/-- The terrain of the template, with its slope profile. -/
noncomputable def templateTerrain (e : ℝ) (sp : Option (Spline ℝ)) : Terrain ℝ :=
  { effusionRateInit := e, depth := 1.4, width := 4.5, gravity := 9.81, defaultSlope := degToRad 2.657414,
    spline := sp, maxLength := 30000, smoothing := false, smoothingPoints := -1.0 }

noncomputable def templatePrepared (rate : Json ℝ) (e : ℝ) (rows : List (SlopeLine ℝ)) : Prepared ℝ :=
  { cfg := { rate := rate, lavaName := .str "example", slopeFile := .str "slope.txt", stepSize := 10, massConservation := false }
    integrator := { dx := 10, models := templateModels, massConservation := false }
    world := newWorld (templateTerrain e (some ⟨profileFor (templateTerrain e none) rows⟩))
      { crystal := 0.104, temp := 1387.15, pos := 0, time := 1, strain := 3 * e / 1.4 ^ 2 / 4.5 } [] }

theorem template_prepare (env : Env ℝ) (rate : Json ℝ) (e : ℝ) (hrate : rate.toFloat env = .ok e) (rows : List (SlopeLine ℝ))
    (hslope : env.slopeFile "slope.txt" = some rows) (h2 : 2 ≤ (usableRows rows).length)
    (hasc : (usableRows rows).Pairwise fun a b => a.dist < b.dist) :
    prepare env (templateConfig rate) [] = .ok (templatePrepared rate e rows) := by
  have N := template_number env rate
  rw [C55_run_starts_from_the_configuration]
  refine ⟨⟨⟨_, rfl, rfl⟩, ⟨_, rfl, rfl⟩, ⟨_, rfl, rfl⟩, ⟨_, ⟨_, rfl, rfl⟩, rfl⟩, _, ⟨_, rfl, rfl⟩, rfl⟩,
    ⟨templateTerrain e none, "slope.txt", rows,
      ⟨⟨_, ⟨_, rfl, rfl⟩, hrate⟩, N ("terrain_conditions", "depth") (by decide), N ("terrain_conditions", "width") (by decide),
        N ("terrain_conditions", "gravity") (by decide), N ("terrain_conditions", "max_channel_length") (by decide),
        ⟨_, ⟨_, _, rfl, rfl, rfl⟩, ?_⟩, fun h => ?_, fun _ => rfl, rfl⟩, rfl, Or.inl rfl, hslope, ?_⟩,
    template_models env rate, rfl, rfl, N ("lava_state", "position") (by decide),
    N ("lava_state", "time") (by decide), N ("lava_state", "crystal_fraction") (by decide),
    N ("eruption_condition", "eruption_temperature") (by decide), ?_, ?_, rfl, rfl, ?_, rfl, rfl, rfl⟩
  · simp [templateTerrain]
  · simp [templateTerrain] at h
  · exact (C48_read_slope _ _ _).mpr ⟨h2, hasc, fun h => by simp [templateTerrain] at h, rfl⟩
  · show (1.4 : ℝ) ≠ 0; norm_num
  · show (4.5 : ℝ) ≠ 0; norm_num
  · show (0.0 : ℝ) = 0; norm_num

/-- **C117** for the numbers and models of resource/template.json: with any effusion rate and any slope profile that starts at the vent and is
    steeper than 0.1 degree somewhere behind it, the run ends without an exception within 3000 steps. (The shipped file also asks for the
    smoothing of the profile; this one does not.) -/
theorem C117_shipped_template (env : Env ℝ) (jsonFile folder : String) (p : Proc ℝ) (rate : Json ℝ) (e : ℝ) (hrate : rate.toFloat env = .ok e)
    (hdata : lookup p.json (env.canon jsonFile) = some (templateConfig rate)) (rows : List (SlopeLine ℝ))
    (hslope : env.slopeFile "slope.txt" = some rows) (h2 : 2 ≤ (usableRows rows).length)
    (hasc : (usableRows rows).Pairwise fun a b => a.dist < b.dist) (hvent : ∃ r ∈ usableRows rows, r.dist ≤ 0)
    (hlong : ∃ r ∈ usableRows rows, 0 ≤ r.dist) (hsteep : ∀ q ∈ usableRows rows, q.slopeDeg < 180) :
    ∃ p', run 3000 env jsonFile folder (newRunner p) = some (.ok (), p') := by
  obtain ⟨r, hr, h0⟩ := hvent
  obtain ⟨r', hr', h0'⟩ := hlong
  refine C117_template_completes env jsonFile folder p _ _ hdata (template_prepare env rate e hrate rows hslope h2 hasc) templateChoice
    (exConfig_selects _ _) ⟨rfl, rfl, rfl, rfl, rfl, rfl⟩ (template_physical env rate) "slope.txt" rows (Or.inl rfl) hslope
    ⟨r, hr, r', hr', h0, h0'⟩ hsteep (fun h => by cases h) 3000 (by norm_num) ?_
  show ((30000 : ℝ) - 0) / 10 ≤ _
  norm_num

noncomputable def templateRows : List (SlopeLine ℝ) := [⟨0, 0, 0, 0, 12⟩, ⟨0, 0, 0, 15000, 3⟩, ⟨0, 0, 0, 30000, 0⟩]

theorem template_usable : usableRows templateRows = [⟨0, 0, 0, 0, 12⟩, ⟨0, 0, 0, 15000, 3⟩] := by
  unfold usableRows templateRows
  norm_num

/-- Non-vacuity: the template on a profile of three samples, the last one too flat to count. -/
example : ∃ p', run 3000 { exEnv with slopeFile := fun _ => some templateRows } "template.json" "out"
    (newRunner { json := [("template.json", templateConfig (.int 3))], results := [], log := [] }) = some (.ok (), p') := by
  refine C117_shipped_template _ _ _ _ (.int 3) 3 ?_ ?_ templateRows rfl ?_ ?_ ?_ ?_ ?_
  · show Except.ok (((3 : ℤ)) : ℝ) = _
    norm_num
  · rfl
  all_goals rw [template_usable]
  · simp
  · simp
  · exact ⟨_, List.mem_cons_self, le_rfl⟩
  · exact ⟨_, List.mem_cons_self, le_rfl⟩
  · intro q hq
    simp only [List.mem_cons, List.not_mem_nil, or_false] at hq
    rcases hq with rfl | rfl <;> norm_num

/-- The template with the Krieger-Dougherty law and lava that is packed exactly to its limit when it leaves the vent. -/
noncomputable def packedIntegrator : Integrator ℝ :=
  { dx := 10, models := { templateModels with lava := { templateModels.lava with rel := .kd 0.104 3.27 } }, massConservation := false }

/-- Non-vacuity of `C117_packed_raises`: every number is sensible, the program's own check accepts the state, and the step raises. -/
example : ∃ (w : World ℝ) (e : Err), Sensible packedIntegrator w.terrain w.st.pos ∧ packedIntegrator.models.lava.notCompatible w.st = .ok false ∧
    singleStep packedIntegrator w = (.error e, w) := by
  have hp := template_prepare { exEnv with slopeFile := fun _ => some templateRows } (.int 3) ((3 : ℤ) : ℝ) rfl templateRows rfl
    (by rw [template_usable]; simp) (by rw [template_usable]; simp)
  obtain ⟨_, hg⟩ := C117_template_sensible _ _ _ _ hp templateChoice (exConfig_selects _ _) ⟨rfl, rfl, rfl, rfl, rfl, rfl⟩ (template_physical _ _)
  have hg' : Sensible packedIntegrator (templatePrepared (.int 3) ((3 : ℤ) : ℝ) templateRows).world.terrain 0 :=
    ⟨hg.step, hg.gravity, hg.width, hg.slopes, hg.density, hg.latent, hg.vesicles, hg.melt, ⟨by norm_num, by norm_num⟩, trivial, hg.rate,
      hg.cover, hg.crust, hg.air, hg.molten, hg.conduction⟩
  have room : packedIntegrator.models.lava.notCompatible (templatePrepared (.int 3) ((3 : ℤ) : ℝ) templateRows).world.st = .ok false := by
    show (RelModel.kd (0.104 : ℝ) 3.27).notCompatible _ = _
    unfold RelModel.notCompatible
    dsimp only
    rw [div_of_ne (by norm_num), ok_bind]
    congr 1
    rw [← Bool.not_eq_true, ltB_real, one_lit]
    show ¬ (1 : ℝ) < 0.104 / 0.104
    norm_num
  obtain ⟨e, he⟩ := C117_packed_raises _ hg' le_rfl (show (0 : ℝ) ≤ 0.104 by norm_num) (show (1237.15 : ℝ) < 1387.15 by norm_num) room
    (show (0.104 : ℝ) = 0.104 from rfl)
  exact ⟨_, e, hg', room, he⟩

end PyFlowGo
