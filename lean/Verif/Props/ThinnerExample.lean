import Verif.Props.ThinnerWhich
/-
  C134 on configuration files: the template with rain as its only heat loss in its channel of 1.4 m, with its melt and with one that is a quarter more viscous (the constant A of the
  Vogel-Fulcher-Tammann law -4.42 instead of -4.52).
-/
set_option linter.unusedSectionVars false
namespace PyFlowGo
open Spec

noncomputable def thickNum (_ : String) (key : String) : ℝ :=
  match key with
  | "step_size" => 10
  | "width" => 4.5
  | "depth" => 1.4
  | "gravity" => 9.81
  | "max_channel_length" => 30000
  | "eruption_temperature" => 1387.15
  | "viscosity_eruption" => 1000
  | "position" => 0
  | "time" => 1
  | "crystal_fraction" => 0.104
  | "density_dre" => 2970
  | "vesicle_fraction" => 0.64
  | "liquidus_temperature" => 0
  | "stefan-boltzmann_sigma" => 5.67e-8
  | "emissivity_epsilon" => 0.95
  | "basal_temperature" => 773.15
  | "core_base_distance" => 19
  | "rainfall_rate" => 7.93e-8
  | "density_water" => 958
  | "latent_heat_vaporization" => 2.8e6
  | "wind_speed" => 5
  | "ch_air" => 0.0036
  | "air_temperature" => 293.15
  | "air_density" => 0.4412
  | "air_specific_heat_capacity" => 1099
  | "buffer" => 140
  | "crust_cover_fraction" => 1
  | "alpha" => -0.00756
  | "crust_temperature" => 773.15
  | "shaw_slope" => 2.36
  | "a_vft" => -4.42
  | "b_vft" => 5558
  | "c_vft" => 582.9
  | "crystals_grown_during_cooling" => 0.896
  | "solid_temperature" => 1237.15
  | "latent_heat_of_crystallization" => 350000
  | "max_packing" => 0.641
  | "einstein_coef" => 3.27
  | "strain_rate" => 1
  | _ => 1

noncomputable def thickConfig (rate : Json ℝ) : Json ℝ := exConfigR rate thickNum rainChoice

theorem thick_number (env : Env ℝ) (rate : Json ℝ) (e : Req) (he : e ∈ allReq) :
    NumberAt env (thickConfig rate) e.1 e.2 (thickNum e.1 e.2) := exConfig_number env _ _ e he

theorem thick_holds (env : Env ℝ) (rate : Json ℝ) (sec key : String) (he : (sec, key) ∈ allReq) (p : ℝ → Prop) (h : p (thickNum sec key)) :
    EntryHolds env (thickConfig rate) sec key p := by
  intro x hx
  rw [number_unique hx (thick_number env rate (sec, key) he)]
  exact h

/-- The numbers make physical sense. -/
theorem thick_physical (env : Env ℝ) (rate : Json ℝ) : Physical env (thickConfig rate) where
  step := by
    intro v x h hx
    have := topEntry_unique h ⟨_, rfl, rfl⟩
    rw [this] at hx
    have : (10 : ℝ) = x := Except.ok.inj hx
    rw [← this]; norm_num
  depth := thick_holds _ _ _ _ (by decide) _ (by norm_num [thickNum])
  width := thick_holds _ _ _ _ (by decide) _ (by norm_num [thickNum])
  gravity := thick_holds _ _ _ _ (by decide) _ (by norm_num [thickNum])
  density := thick_holds _ _ _ _ (by decide) _ (by norm_num [thickNum])
  vesicles := thick_holds _ _ _ _ (by decide) _ (by norm_num [thickNum])
  crystals := thick_holds _ _ _ _ (by decide) _ (by norm_num [thickNum])
  latent := thick_holds _ _ _ _ (by decide) _ (by norm_num [thickNum])
  grown := thick_holds _ _ _ _ (by decide) _ (by norm_num [thickNum])
  solidus := thick_holds _ _ _ _ (by decide) _ (thick_holds _ _ _ _ (by decide) _ (by norm_num [thickNum]))
  viscosity := thick_holds _ _ _ _ (by decide) _ (by norm_num [thickNum])
  shaw := thick_holds _ _ _ _ (by decide) _ (by norm_num [thickNum])
  vft := thick_holds _ _ _ _ (by decide) _ (by norm_num [thickNum])
  vftc := thick_holds _ _ _ _ (by decide) _ (thick_holds _ _ _ _ (by decide) _ (by norm_num [thickNum]))
  alpha := thick_holds _ _ _ _ (by decide) _ (by norm_num [thickNum])
  cover := thick_holds _ _ _ _ (by decide) _ (by norm_num [thickNum])
  air := thick_holds _ _ _ _ (by decide) _ (by norm_num [thickNum])
  crust := thick_holds _ _ _ _ (by decide) _ ⟨by norm_num [thickNum], thick_holds _ _ _ _ (by decide) _ (by norm_num [thickNum])⟩
  molten := thick_holds _ _ _ _ (by decide) _ ⟨by norm_num [thickNum], thick_holds _ _ _ _ (by decide) _
    ⟨by norm_num [thickNum], thick_holds _ _ _ _ (by decide) _ (by norm_num [thickNum])⟩⟩
  ground := thick_holds _ _ _ _ (by decide) _ (by norm_num [thickNum])

noncomputable def thickModels : Models ℝ := { rainModels with lava := { rainModels.lava with melt := .vft (-4.42) 5558 582.9 } }

theorem thick_models (env : Env ℝ) (rate : Json ℝ) : factory env (thickConfig rate) = .ok thickModels := by
  have N := thick_number env rate
  refine (C55_models_come_from_the_configuration _ _ _).mpr ⟨rainChoice, exConfig_selects _ _, ?_, ?_, ?_, ?_, ?_, ?_⟩
  · exact ⟨_, _, _, _, N ("lava_state", "crystal_fraction") (by decide),
      N ("crystals_parameters", "crystals_grown_during_cooling") (by decide),
      N ("crystals_parameters", "solid_temperature") (by decide),
      N ("eruption_condition", "eruption_temperature") (by decide), rfl⟩
  · exact ⟨N ("convection_parameters", "air_temperature") (by decide), N ("convection_parameters", "wind_speed") (by decide),
      N ("convection_parameters", "ch_air") (by decide), N ("convection_parameters", "air_density") (by decide),
      N ("convection_parameters", "air_specific_heat_capacity") (by decide)⟩
  · exact ⟨⟨_, _, _, N ("melt_viscosity_parameters", "a_vft") (by decide), N ("melt_viscosity_parameters", "b_vft") (by decide),
        N ("melt_viscosity_parameters", "c_vft") (by decide), rfl⟩,
      ⟨_, N ("lava_state", "vesicle_fraction") (by decide), rfl⟩, rfl, rfl,
      ⟨_, N ("eruption_condition", "eruption_temperature") (by decide), rfl⟩,
      N ("eruption_condition", "eruption_temperature") (by decide), N ("thermal_parameters", "buffer") (by decide),
      N ("crystals_parameters", "latent_heat_of_crystallization") (by decide), N ("lava_state", "density_dre") (by decide),
      _, N ("relative_viscosity_parameters", "max_packing") (by decide)⟩
  · exact ⟨_, _, N ("thermal_parameters", "alpha") (by decide), N ("thermal_parameters", "crust_cover_fraction") (by decide), rfl⟩
  · exact ⟨_, N ("thermal_parameters", "crust_temperature") (by decide), rfl⟩
  · exact ⟨[], [], [], [.rain 7.93e-8 958 2.8e6], [], [], rfl, rfl, Or.inr ⟨rfl, rfl⟩, Or.inr ⟨rfl, rfl⟩,
      Or.inl ⟨rfl, _, ⟨_, _, _, N ("rain_parameters", "rainfall_rate") (by decide), N ("rain_parameters", "density_water") (by decide),
        N ("rain_parameters", "latent_heat_vaporization") (by decide), rfl⟩, rfl⟩,
      Or.inr ⟨rfl, rfl⟩, Or.inr ⟨rfl, rfl⟩, fun h => absurd (show ("no" : String) = "yes" from h) (by decide)⟩

noncomputable def thickPrepared (rate : Json ℝ) (e : ℝ) (rows : List (SlopeLine ℝ)) : Prepared ℝ :=
  { templatePrepared rate e rows with integrator := { dx := 10, models := thickModels, massConservation := false } }

theorem thick_prepare (env : Env ℝ) (rate : Json ℝ) (e : ℝ) (hrate : rate.toFloat env = .ok e) (rows : List (SlopeLine ℝ))
    (hslope : env.slopeFile "slope.txt" = some rows) (h2 : 2 ≤ (usableRows rows).length)
    (hasc : (usableRows rows).Pairwise fun a b => a.dist < b.dist) :
    prepare env (thickConfig rate) [] = .ok (thickPrepared rate e rows) := by
  have N := thick_number env rate
  rw [C55_run_starts_from_the_configuration]
  refine ⟨⟨⟨_, rfl, rfl⟩, ⟨_, rfl, rfl⟩, ⟨_, rfl, rfl⟩, ⟨_, ⟨_, rfl, rfl⟩, rfl⟩, _, ⟨_, rfl, rfl⟩, rfl⟩,
    ⟨templateTerrain e none, "slope.txt", rows,
      ⟨⟨_, ⟨_, rfl, rfl⟩, hrate⟩, N ("terrain_conditions", "depth") (by decide), N ("terrain_conditions", "width") (by decide),
        N ("terrain_conditions", "gravity") (by decide), N ("terrain_conditions", "max_channel_length") (by decide),
        ⟨_, ⟨_, _, rfl, rfl, rfl⟩, ?_⟩, fun h => ?_, fun _ => rfl, rfl⟩, rfl, Or.inl rfl, hslope, ?_⟩,
    thick_models env rate, rfl, rfl, N ("lava_state", "position") (by decide),
    N ("lava_state", "time") (by decide), N ("lava_state", "crystal_fraction") (by decide),
    N ("eruption_condition", "eruption_temperature") (by decide), ?_, ?_, rfl, rfl, ?_, rfl, rfl, rfl⟩
  · simp [templateTerrain]
  · simp [templateTerrain] at h
  · exact (C48_read_slope _ _ _).mpr ⟨h2, hasc, fun h => by simp [templateTerrain] at h, rfl⟩
  · show (1.4 : ℝ) ≠ 0; norm_num
  · show (4.5 : ℝ) ≠ 0; norm_num
  · show (0.0 : ℝ) = 0; norm_num


/-- The runs of both configurations end normally, and the thicker lava is nowhere hotter or faster and has no complete row that the thinner has not. -/
example : ∃ q q' : Proc ℝ,
    run 3000 rainEnv "rain.json" "out" ⟨[("rain.json", rainConfig (.num 0))], [], []⟩ = some (.ok (), q) ∧
    run 3000 rainEnv "rain.json" "out" ⟨[("rain.json", thickConfig (.num 0))], [], []⟩ = some (.ok (), q') ∧
    CompleteRow q.log 0 ∧ (∀ x, CompleteRow q'.log x → CompleteRow q.log x) ∧
    (∀ x T T', BothShow q.log q'.log "core_temperature" x T T' → T' ≤ T) ∧
    (∀ x phi phi', BothShow q.log q'.log "crystal_fraction" x phi phi' → phi ≤ phi') ∧
    (∀ x v v', BothShow q.log q'.log "mean_velocity" x v v' → v' ≤ v) := by
  have h2 : 2 ≤ (usableRows templateRows).length := by rw [template_usable]; simp
  have hasc : (usableRows templateRows).Pairwise fun a b => a.dist < b.dist := by rw [template_usable]; simp
  have hprep := rain_prepare rainEnv (.num 0) 0 rfl templateRows rfl h2 hasc
  have hprep' := thick_prepare rainEnv (.num 0) 0 rfl templateRows rfl h2 hasc
  have hin : ∃ r ∈ usableRows templateRows, ∃ r' ∈ usableRows templateRows, r.dist ≤ (0 : ℝ) ∧ (0 : ℝ) ≤ r'.dist := by
    rw [template_usable]; exact ⟨_, List.mem_cons_self, _, List.mem_cons_self, le_rfl, le_rfl⟩
  have hsteep : ∀ q ∈ usableRows templateRows, q.slopeDeg < 180 := by
    rw [template_usable]
    intro q hq
    simp only [List.mem_cons, List.not_mem_nil, or_false] at hq
    rcases hq with rfl | rfl <;> norm_num
  obtain ⟨_, ha⟩ := C117_template_sensible _ _ _ _ hprep rainChoice (exConfig_selects _ _) ⟨rfl, rfl, rfl, rfl, rfl, rfl⟩ (rain_physical _ _)
  obtain ⟨_, hb⟩ := C117_template_sensible _ _ _ _ hprep' rainChoice (exConfig_selects _ _) ⟨rfl, rfl, rfl, rfl, rfl, rfl⟩ (thick_physical _ _)
  have hva := template_vent _ _ _ hprep rainChoice (exConfig_selects _ _) ⟨rfl, rfl, rfl, rfl, rfl, rfl⟩ (rain_physical _ _)
    "slope.txt" templateRows (Or.inl rfl) rfl hin hsteep
  have hvb := template_vent _ _ _ hprep' rainChoice (exConfig_selects _ _) ⟨rfl, rfl, rfl, rfl, rfl, rfl⟩ (thick_physical _ _)
    "slope.txt" templateRows (Or.inl rfl) rfl hin hsteep
  obtain ⟨q', b1⟩ := C117_template_completes rainEnv "rain.json" "out" ⟨[("rain.json", thickConfig (.num 0))], [], []⟩ _ _ (by show lookup [("rain.json", _)] "rain.json" = _; rw [lookup_cons_eq]; exact if_pos rfl) hprep'
    rainChoice (exConfig_selects _ _) ⟨rfl, rfl, rfl, rfl, rfl, rfl⟩ (thick_physical _ _) "slope.txt" templateRows (Or.inl rfl) rfl hin hsteep (fun h => by cases h) 3000 (by norm_num)
    (by show ((30000 : ℝ) - 0) / 10 ≤ _; norm_num)
  obtain ⟨q, a1⟩ := C117_template_completes rainEnv "rain.json" "out" ⟨[("rain.json", rainConfig (.num 0))], [], []⟩ _ _ (by show lookup [("rain.json", _)] "rain.json" = _; rw [lookup_cons_eq]; exact if_pos rfl) hprep
    rainChoice (exConfig_selects _ _) ⟨rfl, rfl, rfl, rfl, rfl, rfl⟩ (rain_physical _ _) "slope.txt" templateRows (Or.inl rfl) rfl hin hsteep (fun h => by cases h) 3000 (by norm_num)
    (by show ((30000 : ℝ) - 0) / 10 ≤ _; norm_num)
  have hd : lookup [("rain.json", rainConfig (.num 0))] "rain.json" = some (rainConfig (.num 0)) := by rw [lookup_cons_eq]; exact if_pos rfl
  have hd' : lookup [("rain.json", thickConfig (.num 0))] "rain.json" = some (thickConfig (.num 0)) := by rw [lookup_cons_eq]; exact if_pos rfl
  set pr := rainPrepared (.num 0) 0 templateRows with hpr
  have hev : Everyday pr.integrator 0 (0.896 / (1387.15 - 1237.15)) :=
    template_everyday rainModels rfl (by
      intro f hf
      have hf : f ∈ [(Flux.rain 7.93e-8 958 2.8e6 : Flux ℝ)] := hf
      rw [List.mem_singleton.mp hf]
      show (0 : ℝ) ≤ 7.93e-8 * 958 * 2.8e6
      norm_num) false 10 0
  have hst : ∃ y, pr.world.st = ⟨0.104, 1387.15, 0, 1, y⟩ := ⟨_, rfl⟩
  obtain ⟨y0, hst⟩ := hst
  have hcompat : rainModels.lava.yieldNotCompatible { pr.world.terrain with depth := 1.4 } pr.world.st = .ok false := by
    unfold Lava.yieldNotCompatible
    have hy : rainModels.lava.yieldStrength ⟨0.104, 1387.15, 0, 1, y0⟩ = .ok (yieldLaw (⟨0.104, 1387.15, 0, 1, 0⟩ : FlowState ℝ) (.basic 1387.15)) := C34_yield_laws _ _ (by norm_num)
    rw [hst, hy, ok_bind, rain_basal, ok_bind, pure_ok_iff, ← Bool.not_eq_true, leB_real, not_le]
    refine template_yield.trans_lt ?_
    have := rain_stress_ge
    unfold rainStress
    linarith
  have hthin : NotThicker 1237.15 0 rainModels.lava thickModels.lava :=
    C134_melt 0 1237.15 rainModels.lava (.vft (-4.42) 5558 582.9) trivial trivial fun s eta eta' hs h1 h2 =>
      (C134_which_melts 1237.15 s hs eta eta').2.2 _ _ _ _ _ (by norm_num) (by norm_num) le_rfl h1 h2
  obtain ⟨w, hsim, hql⟩ := run_log (grid := depthGrid) hd hprep a1
  rw [open_rate _ _ _ _ rfl] at hsim
  obtain ⟨t1, t2⟩ := rain_table (g := pr.integrator) (a := 7.93e-8) (b := 958) (c := 2.8e6) (r := 0.896 / (1387.15 - 1237.15)) (x0 := 0) (by norm_num) rfl rfl pr.world w ha hev.rate
    le_rfl hva rfl rfl 3000 hsim (1387.15 - 140)
  have hvel0 := velocity_total ha hva.depth (⟨le_rfl, hva.crystals, hva.hot, hva.room, hva.off, hva.ground⟩ : Fit pr.integrator pr.world.terrain 0 pr.world.st)
  obtain ⟨k, hk⟩ := hvel0
  obtain ⟨v, y, _, hv, _, _⟩ := hk pr.world.st.strain
  have hv : pr.integrator.models.lava.meanVelocity pr.world.terrain pr.world.st = .ok (v, y) := hv
  have hv0 : 0 < v := by
    obtain ⟨t0, tb, mu, f1, f2, f3, n1, n2, n3, f4, _⟩ := (meanVelocity_ok_iff _ _ _ _ _).mp hv
    obtain ⟨mu', m1, m2⟩ := viscosity_total ha (⟨le_rfl, hva.crystals, hva.hot, hva.room, hva.off, hva.ground⟩ : Fit pr.integrator pr.world.terrain 0 pr.world.st)
    rw [f3, Except.ok.injEq] at m1
    have hc : pr.integrator.models.lava.yieldNotCompatible pr.world.terrain pr.world.st = .ok false := hcompat
    unfold Lava.yieldNotCompatible at hc
    rw [f1, ok_bind, f2, ok_bind, pure_ok_iff, ← Bool.not_eq_true, leB_real, not_le] at hc
    have ht0 : 0 ≤ t0 := by
      obtain ⟨t1, y1, y2⟩ := yield_total (g := pr.integrator) hva.crystals
      rw [y1, Except.ok.injEq] at f1
      rw [← f1]; exact y2
    rw [f4]
    exact bingham_pos hva.depth (by linarith) (by rw [m1]; exact m2) ht0 hc.ne
  have hrow := C119_first_row (g := pr.integrator) pr.world w ha le_rfl hva rfl rfl rfl rfl (fun _ _ => rfl) v y hv hv0
    (fun width qs hw h => by
      have hfl : pr.integrator.models.fluxes = [.rain 7.93e-8 958 2.8e6] := rfl
      rw [hfl] at h
      cases h with
      | cons a1 a2 =>
        cases a2
        have a1 : _ = 7.93e-8 * 958 * 2.8e6 * width := a1
        rw [a1]
        simp only [List.sum_cons, List.sum_nil, add_zero]
        positivity) 3000 hsim
  rw [← hql] at t1 t2 hrow
  obtain ⟨c1, c2, c3, c4⟩ := C134_run 3000 3000 rainEnv "rain.json" "out" _ _ _ _ hd hd' rfl rfl pr (thickPrepared (.num 0) 0 templateRows) hprep hprep' (.vft (-4.42) 5558 582.9) .er .no (.basic 1387.15) rfl rfl
    ⟨rfl, rfl, rfl⟩ rfl rfl ha hb _ hev ⟨fun _ _ _ _ _ _ _ _ h => (by cases h), fun _ h => (by cases h), fun _ _ _ _ _ h => (by cases h)⟩ hthin hvb hcompat q q' a1 b1 t1
  exact ⟨q, q', a1, b1, hrow, c4 t2, c1, c2, c3⟩

end PyFlowGo
