import Verif.Props.StrongerExample
import Verif.Props.LastRow
/-
  C121 on configuration files: the template with rain as its only heat loss, at two effusion rates.
-/
set_option linter.unusedSectionVars false
namespace PyFlowGo
open Spec

/-- The models of the template, with rain as the only heat loss. -/
def rainChoice : Choice := { templateChoice with radiation := "no", conduction := "no", convection := "no", rain := "yes" }

noncomputable def rainConfig (rate : Json ℝ) : Json ℝ := exConfigR rate templateNum rainChoice

theorem rain_number (env : Env ℝ) (rate : Json ℝ) (e : Req) (he : e ∈ allReq) :
    NumberAt env (rainConfig rate) e.1 e.2 (templateNum e.1 e.2) := exConfig_number env _ _ e he

theorem rain_holds (env : Env ℝ) (rate : Json ℝ) (sec key : String) (he : (sec, key) ∈ allReq) (p : ℝ → Prop) (h : p (templateNum sec key)) :
    EntryHolds env (rainConfig rate) sec key p := by
  intro x hx
  rw [number_unique hx (rain_number env rate (sec, key) he)]
  exact h

/-- The numbers make physical sense. -/
theorem rain_physical (env : Env ℝ) (rate : Json ℝ) : Physical env (rainConfig rate) where
  step := by
    intro v x h hx
    have := topEntry_unique h ⟨_, rfl, rfl⟩
    rw [this] at hx
    have : (10 : ℝ) = x := Except.ok.inj hx
    rw [← this]; norm_num
  depth := rain_holds _ _ _ _ (by decide) _ (by norm_num [templateNum])
  width := rain_holds _ _ _ _ (by decide) _ (by norm_num [templateNum])
  gravity := rain_holds _ _ _ _ (by decide) _ (by norm_num [templateNum])
  density := rain_holds _ _ _ _ (by decide) _ (by norm_num [templateNum])
  vesicles := rain_holds _ _ _ _ (by decide) _ (by norm_num [templateNum])
  crystals := rain_holds _ _ _ _ (by decide) _ (by norm_num [templateNum])
  latent := rain_holds _ _ _ _ (by decide) _ (by norm_num [templateNum])
  grown := rain_holds _ _ _ _ (by decide) _ (by norm_num [templateNum])
  solidus := rain_holds _ _ _ _ (by decide) _ (rain_holds _ _ _ _ (by decide) _ (by norm_num [templateNum]))
  viscosity := rain_holds _ _ _ _ (by decide) _ (by norm_num [templateNum])
  shaw := rain_holds _ _ _ _ (by decide) _ (by norm_num [templateNum])
  vft := rain_holds _ _ _ _ (by decide) _ (by norm_num [templateNum])
  vftc := rain_holds _ _ _ _ (by decide) _ (rain_holds _ _ _ _ (by decide) _ (by norm_num [templateNum]))
  alpha := rain_holds _ _ _ _ (by decide) _ (by norm_num [templateNum])
  cover := rain_holds _ _ _ _ (by decide) _ (by norm_num [templateNum])
  air := rain_holds _ _ _ _ (by decide) _ (by norm_num [templateNum])
  crust := rain_holds _ _ _ _ (by decide) _ ⟨by norm_num [templateNum], rain_holds _ _ _ _ (by decide) _ (by norm_num [templateNum])⟩
  molten := rain_holds _ _ _ _ (by decide) _ ⟨by norm_num [templateNum], rain_holds _ _ _ _ (by decide) _
    ⟨by norm_num [templateNum], rain_holds _ _ _ _ (by decide) _ (by norm_num [templateNum])⟩⟩
  ground := rain_holds _ _ _ _ (by decide) _ (by norm_num [templateNum])

noncomputable def rainModels : Models ℝ := { templateModels with fluxes := [.rain 7.93e-8 958 2.8e6] }

theorem rain_models (env : Env ℝ) (rate : Json ℝ) : factory env (rainConfig rate) = .ok rainModels := by
  have N := rain_number env rate
  refine (C55_models_come_from_the_configuration _ _ _).mpr ⟨rainChoice, exConfig_selects _ _, ?_, ?_, ?_, ?_, ?_, ?_⟩
  · exact ⟨_, _, _, _, N ("lava_state", "crystal_fraction") (by decide),
      N ("crystals_parameters", "crystals_grown_during_cooling") (by decide),
      N ("crystals_parameters", "solid_temperature") (by decide),
      N ("eruption_condition", "eruption_temperature") (by decide), rfl⟩
  · exact ⟨N ("convection_parameters", "air_temperature") (by decide), N ("convection_parameters", "wind_speed") (by decide),
      N ("convection_parameters", "ch_air") (by decide), N ("convection_parameters", "air_density") (by decide),
      N ("convection_parameters", "air_specific_heat_capacity") (by decide)⟩
  · exact ⟨⟨_, _, _, N ("melt_viscosity_parameters", "a_vft") (by decide), N ("melt_viscosity_parameters", "b_vft") (by decide),
        N ("melt_viscosity_parameters", "c_vft") (by decide), rfl⟩,
      ⟨_, N ("lava_state", "vesicle_fraction") (by decide), rfl⟩, rfl, rfl,
      ⟨_, N ("eruption_condition", "eruption_temperature") (by decide), rfl⟩,
      N ("eruption_condition", "eruption_temperature") (by decide), N ("thermal_parameters", "buffer") (by decide),
      N ("crystals_parameters", "latent_heat_of_crystallization") (by decide), N ("lava_state", "density_dre") (by decide),
      _, N ("relative_viscosity_parameters", "max_packing") (by decide)⟩
  · exact ⟨_, _, N ("thermal_parameters", "alpha") (by decide), N ("thermal_parameters", "crust_cover_fraction") (by decide), rfl⟩
  · exact ⟨_, N ("thermal_parameters", "crust_temperature") (by decide), rfl⟩
  · exact ⟨[], [], [], [.rain 7.93e-8 958 2.8e6], [], [], rfl, rfl, Or.inr ⟨rfl, rfl⟩, Or.inr ⟨rfl, rfl⟩,
      Or.inl ⟨rfl, _, ⟨_, _, _, N ("rain_parameters", "rainfall_rate") (by decide), N ("rain_parameters", "density_water") (by decide),
        N ("rain_parameters", "latent_heat_vaporization") (by decide), rfl⟩, rfl⟩,
      Or.inr ⟨rfl, rfl⟩, Or.inr ⟨rfl, rfl⟩, fun h => absurd (show ("no" : String) = "yes" from h) (by decide)⟩

noncomputable def rainPrepared (rate : Json ℝ) (e : ℝ) (rows : List (SlopeLine ℝ)) : Prepared ℝ :=
  { templatePrepared rate e rows with integrator := { dx := 10, models := rainModels, massConservation := false } }

theorem rain_prepare (env : Env ℝ) (rate : Json ℝ) (e : ℝ) (hrate : rate.toFloat env = .ok e) (rows : List (SlopeLine ℝ))
    (hslope : env.slopeFile "slope.txt" = some rows) (h2 : 2 ≤ (usableRows rows).length)
    (hasc : (usableRows rows).Pairwise fun a b => a.dist < b.dist) :
    prepare env (rainConfig rate) [] = .ok (rainPrepared rate e rows) := by
  have N := rain_number env rate
  rw [C55_run_starts_from_the_configuration]
  refine ⟨⟨⟨_, rfl, rfl⟩, ⟨_, rfl, rfl⟩, ⟨_, rfl, rfl⟩, ⟨_, ⟨_, rfl, rfl⟩, rfl⟩, _, ⟨_, rfl, rfl⟩, rfl⟩,
    ⟨templateTerrain e none, "slope.txt", rows,
      ⟨⟨_, ⟨_, rfl, rfl⟩, hrate⟩, N ("terrain_conditions", "depth") (by decide), N ("terrain_conditions", "width") (by decide),
        N ("terrain_conditions", "gravity") (by decide), N ("terrain_conditions", "max_channel_length") (by decide),
        ⟨_, ⟨_, _, rfl, rfl, rfl⟩, ?_⟩, fun h => ?_, fun _ => rfl, rfl⟩, rfl, Or.inl rfl, hslope, ?_⟩,
    rain_models env rate, rfl, rfl, N ("lava_state", "position") (by decide),
    N ("lava_state", "time") (by decide), N ("lava_state", "crystal_fraction") (by decide),
    N ("eruption_condition", "eruption_temperature") (by decide), ?_, ?_, rfl, rfl, ?_, rfl, rfl, rfl⟩
  · simp [templateTerrain]
  · simp [templateTerrain] at h
  · exact (C48_read_slope _ _ _).mpr ⟨h2, hasc, fun h => by simp [templateTerrain] at h, rfl⟩
  · show (1.4 : ℝ) ≠ 0; norm_num
  · show (4.5 : ℝ) ≠ 0; norm_num
  · show (0.0 : ℝ) = 0; norm_num


/-- Two such configurations differ in the effusion rate only. -/
theorem rain_same (env : Env ℝ) (r r' : Json ℝ) : SameButSupply env rainChoice (rainConfig r) (rainConfig r') ∧ SameSwitch (rainConfig r) (rainConfig r') := by
  have hsec : ∀ e ∈ usedEntries rainChoice ++ idleNumbers rainChoice, e.1 ≠ "effusion_rate_init" := by decide
  refine ⟨⟨fun e he hn v => ?_, fun k hk hn v => ?_, fun e he => ?_, fun h => absurd h (by decide), fun h => absurd h (by decide)⟩, fun v => ?_⟩
  · exact rate_entry [] r r' _ _ _ _ (hsec e (List.mem_append_left _ he)) v
  · exact rate_top [] r r' _ _ _ hn v
  · exact exists_congr fun x => exists_congr fun v =>
      and_congr_left fun _ => rate_entry [] r r' _ _ _ _ (hsec e (List.mem_append_right _ he)) v
  · exact rate_entry [] r r' _ _ _ _ (by decide) v

noncomputable def rainEnv : Env ℝ := { exEnv with slopeFile := fun _ => some templateRows }

/-- The stress at the base of a channel of the given depth at the vent. -/
noncomputable def rainStress (d : ℝ) : ℝ := d * (2970 * (1 - 0.64)) * 9.81 * Real.sin (degToRad 12)

/-- The discharge of a channel whose lava is stuck is small. -/
theorem stuck_rate {D c mu t0 : ℝ} (hD : 0 < D) (hc : 1300 ≤ c) (hmu : 0 < mu) (h0 : 0 ≤ t0) (h71 : t0 ≤ 71) (hstuck : D * c ≤ t0) :
    binghamVelocity D (D * c) mu t0 * 4.5 * D < binghamVelocity 1.4 (1.4 * c) mu t0 * 4.5 * 1.4 := by
  have hc0 : 0 < c := by linarith
  have e1 : binghamVelocity D (D * c) mu t0 * 4.5 * D = 1.5 / (mu * c ^ 2) * ((D * c) ^ 3 - 3 / 2 * t0 * (D * c) ^ 2 + 1 / 2 * t0 ^ 3) := by
    unfold binghamVelocity; field_simp; ring
  have e2 : binghamVelocity 1.4 (1.4 * c) mu t0 * 4.5 * 1.4 = 1.5 / (mu * c ^ 2) * ((1.4 * c) ^ 3 - 3 / 2 * t0 * (1.4 * c) ^ 2 + 1 / 2 * t0 ^ 3) := by
    unfold binghamVelocity; field_simp; ring
  rw [e1, e2]
  have hk : 0 < 1.5 / (mu * c ^ 2) := by positivity
  refine mul_lt_mul_of_pos_left ?_ hk
  have h1 : 0 < D * c := by positivity
  have h2 : (D * c) ^ 3 - 3 / 2 * t0 * (D * c) ^ 2 ≤ 0 := by nlinarith [sq_nonneg (D * c)]
  have h3 : 0 < (1.4 * c) ^ 3 - 3 / 2 * t0 * (1.4 * c) ^ 2 := by
    have : 0 < (1.4 * c) ^ 2 := by positivity
    nlinarith
  linarith

theorem rain_vent_slope (rate : Json ℝ) (e : ℝ) (d : ℝ) : ({ (rainPrepared rate e templateRows).world.terrain with depth := d } : Terrain ℝ).slope 0 = .ok (degToRad 12) :=
  template_slope

theorem rain_basal (rate : Json ℝ) (e d y : ℝ) : rainModels.lava.basalStress { (rainPrepared rate e templateRows).world.terrain with depth := d } ⟨0.104, 1387.15, 0, 1, y⟩ =
    .ok (rainStress d) := by
  unfold Lava.basalStress
  have hs := rain_vent_slope rate e d
  dsimp only at hs ⊢
  rw [hs, ok_bind]
  have hd : rainModels.lava.density ⟨0.104, 1387.15, 0, 1, y⟩ = 2970 * (1 - 0.64) := by
    show (2970 : ℝ) * (1.0 - 0.64) = _
    norm_num
  rw [hd]
  rfl

theorem rain_stress_ge : (1300 : ℝ) ≤ 2970 * (1 - 0.64) * 9.81 * Real.sin (degToRad 12) := by
  have hsin : 2 / 15 ≤ Real.sin (degToRad 12) := by
    have h0 : 0 ≤ degToRad 12 := by unfold degToRad; positivity
    have h1 : degToRad 12 ≤ Real.pi / 2 := by unfold degToRad; linarith [Real.pi_pos]
    refine le_trans (le_of_eq ?_) (Real.mul_le_sin h0 h1)
    unfold degToRad
    have := Real.pi_pos.ne'
    field_simp
    norm_num
  nlinarith

theorem rain_viscosity : ∃ mu : ℝ, 0 < mu ∧ mu ≤ 2000 ∧ ∀ y, rainModels.lava.bulkViscosity ⟨0.104, 1387.15, 0, 1, y⟩ = .ok mu := by
  have h2 : 2 ≤ (usableRows templateRows).length := by rw [template_usable]; simp
  have hasc : (usableRows templateRows).Pairwise fun a b => a.dist < b.dist := by rw [template_usable]; simp
  have hprep := rain_prepare rainEnv (.num 1) 1 rfl templateRows rfl h2 hasc
  have hin : ∃ r ∈ usableRows templateRows, ∃ r' ∈ usableRows templateRows, r.dist ≤ (0 : ℝ) ∧ (0 : ℝ) ≤ r'.dist := by
    rw [template_usable]; exact ⟨_, List.mem_cons_self, _, List.mem_cons_self, le_rfl, le_rfl⟩
  have hsteep : ∀ q ∈ usableRows templateRows, q.slopeDeg < 180 := by
    rw [template_usable]
    intro q hq
    simp only [List.mem_cons, List.not_mem_nil, or_false] at hq
    rcases hq with rfl | rfl <;> norm_num
  obtain ⟨hrel, hg⟩ := C117_template_sensible _ _ _ _ hprep rainChoice (exConfig_selects _ _) ⟨rfl, rfl, rfl, rfl, rfl, rfl⟩ (rain_physical _ _)
  have hv := template_vent _ _ _ hprep rainChoice (exConfig_selects _ _) ⟨rfl, rfl, rfl, rfl, rfl, rfl⟩ (rain_physical _ _)
    "slope.txt" templateRows (Or.inl rfl) rfl hin hsteep
  obtain ⟨mu, h1, h0⟩ := viscosity_total hg ⟨le_rfl, hv.crystals, hv.hot, hv.room, hv.off, hv.ground⟩
  refine ⟨mu, h0, ?_, fun y => h1⟩
  obtain ⟨a, b, c, ha, hb, hc, e⟩ := (C33_bulk_is_product _ _ _).mp h1
  have ha : rainModels.lava.melt.viscosity (⟨0.104, 1387.15, 0, 1, 3 * 1 / 1.4 ^ 2 / 4.5⟩ : FlowState ℝ) = .ok a := ha
  have hb : PyNum.mpow (1.0 - 1.51 * (0.104 : ℝ)) (-2.5) = .ok b := hb
  have hc : (Except.ok (1.0 : ℝ) : Except Err ℝ) = .ok c := hc
  have hm : rainModels.lava.melt = .vft (-4.52) 5558 582.9 := rfl
  rw [hm, (C28_melt_laws _).2.2, if_neg (by norm_num), Except.ok.injEq] at ha
  have hb := (mpow_ok hb).symm
  have hc := Except.ok.inj hc
  have hca : a ≤ 1000 := by
    rw [← ha]
    unfold meltVft
    have : (10 : ℝ) ^ (3 : ℝ) = 1000 := by norm_num
    rw [← this]
    exact Real.rpow_le_rpow_of_exponent_le (by norm_num) (by norm_num)
  have ha0 : 0 < a := by rw [← ha]; unfold meltVft; positivity
  have hcb : b ≤ 2 := by
    rw [← hb]
    have h3 : ((1.0 : ℝ) - 1.51 * 0.104) ^ (-2.5 : ℝ) ≤ (1.0 - 1.51 * 0.104) ^ (-3 : ℝ) := Real.rpow_le_rpow_of_exponent_ge (by norm_num) (by norm_num) (by norm_num)
    refine h3.trans ?_
    rw [show (-3 : ℝ) = ((-3 : ℤ) : ℝ) by norm_num, Real.rpow_intCast]
    norm_num
  have hb0 : 0 < b := by rw [← hb]; refine Real.rpow_pos_of_pos (by norm_num) _
  rw [e, ← hc]
  norm_num
  nlinarith

/-- The discharge of a channel at least as deep as the template's. -/
theorem rain_rate_ge {D c mu t0 : ℝ} (hD : 1.4 ≤ D) (hc : 1300 ≤ c) (hmu : 0 < mu) (hmu2 : mu ≤ 2000) (h0 : 0 ≤ t0) (h71 : t0 ≤ 71) :
    1 ≤ binghamVelocity D (D * c) mu t0 * 4.5 * D := by
  have hD0 : 0 < D := by linarith
  have hc0 : 0 < c := by linarith
  have e1 : binghamVelocity D (D * c) mu t0 * 4.5 * D = 1.5 / mu * (D ^ 2 * (D * c - 3 / 2 * t0)) + 0.75 * t0 ^ 3 / (mu * c ^ 2) := by
    unfold binghamVelocity; field_simp; ring
  rw [e1]
  have h1 : 0 ≤ 0.75 * t0 ^ 3 / (mu * c ^ 2) := by positivity
  have h2 : 1.5 / 2000 ≤ 1.5 / mu := div_le_div_of_nonneg_left (by norm_num) hmu hmu2
  have h3 : 1700 ≤ D * c - 3 / 2 * t0 := by nlinarith
  have h4 : 1.9 ≤ D ^ 2 := by nlinarith
  have h5 : 1.9 * 1700 ≤ D ^ 2 * (D * c - 3 / 2 * t0) := mul_le_mul h4 h3 (by norm_num) (by positivity)
  have h6 : 1.5 / 2000 * (1.9 * 1700) ≤ 1.5 / mu * (D ^ 2 * (D * c - 3 / 2 * t0)) := mul_le_mul h2 h5 (by norm_num) (by positivity)
  have : (1 : ℝ) ≤ 1.5 / 2000 * (1.9 * 1700) := by norm_num
  linarith

theorem rain_slope (rate : Json ℝ) (e : ℝ) : ∃ y, (rainPrepared rate e templateRows).world.terrain.slope 10 = .ok y ∧ degToRad 3 ≤ y ∧ y ≤ degToRad 12 := by
  have h2 : 2 ≤ (usableRows templateRows).length := by rw [template_usable]; simp
  have hok := (C48_read_slope (templateTerrain e none) { templateTerrain e none with spline := some ⟨profileFor (templateTerrain e none) templateRows⟩ }
    templateRows).mpr ⟨h2, by rw [template_usable]; simp, fun h => by simp [templateTerrain] at h, rfl⟩
  have hprof : profileFor (templateTerrain e none) templateRows = [(0, degToRad 12), (15000, degToRad 3)] := by
    unfold profileFor
    rw [if_neg (by simp [templateTerrain])]
    unfold rawProfile
    rw [template_usable]
    simp
  have hle : degToRad 3 ≤ degToRad 12 := by unfold degToRad; linarith [Real.pi_pos]
  obtain ⟨y, h3, h4, h5⟩ := C50_between_neighbours _ _ _ hok (0, degToRad 12) (15000, degToRad 3) ⟨[], [], hprof⟩ 10 (by norm_num) (by norm_num)
  dsimp only at h4 h5
  rw [min_eq_right hle] at h4
  rw [max_eq_left hle] at h5
  exact ⟨y, h3, h4, h5⟩

theorem rain_sine {y : ℝ} (h3 : degToRad 3 ≤ y) (h12 : y ≤ degToRad 12) : 1 / 30 ≤ Real.sin y := by
  have hpi := Real.pi_pos
  have e3 : degToRad 3 = Real.pi / 60 := by unfold degToRad; ring
  have e12 : degToRad 12 = Real.pi / 15 := by unfold degToRad; ring
  rw [e3] at h3
  rw [e12] at h12
  refine le_trans ?_ (Real.mul_le_sin (by linarith) (by linarith))
  rw [div_mul_eq_mul_div, le_div_iff₀ hpi]
  linarith

/-- If the first row is complete and the supply is not too small, the second row is complete. -/
theorem rain_second_row (rate : Json ℝ) (e : ℝ) (w w' : World ℝ) (hg : Sensible (rainPrepared rate e templateRows).integrator w.terrain 0)
    (hv : AtVent (rainPrepared rate e templateRows).integrator w) (hlog : w.log = []) (hit : w.iteration = 0)
    (hst : ∃ y, w.st = ⟨0.104, 1387.15, 0, 1, y⟩) (hter : w.terrain = { (rainPrepared rate e templateRows).world.terrain with depth := w.terrain.depth })
    (v y : ℝ) (hvel : (rainPrepared rate e templateRows).integrator.models.lava.meanVelocity w.terrain w.st = .ok (v, y))
    (hE : 1 ≤ v * 4.5 * w.terrain.depth) (hD : 1.4 ≤ w.terrain.depth) (hrow : CompleteRow w'.log 0)
    (hheat : ∀ x y, loggedNum w'.log x "heat_budget" = some y → 0 < y)
    (n : Nat) (h : runLoop (rainPrepared rate e templateRows).integrator n w = some (.ok (), w')) : CompleteRow w'.log 10 := by
  set g := (rainPrepared rate e templateRows).integrator with hgdef
  have hdx : g.dx = 10 := rfl
  have hm : g.models = rainModels := rfl
  obtain ⟨y0, hst⟩ := hst
  have hwid : w.terrain.width = 4.5 := by rw [hter]; rfl
  have hpos : w.st.pos = 0 := by rw [hst]
  have hrate : VentRate g w (v * 4.5 * w.terrain.depth) := by
    intro v' x' h'
    rw [hvel, Except.ok.injEq, Prod.mk.injEq] at h'
    rw [if_pos hit, h'.1, hwid]
  obtain ⟨k, ws, d, t⟩ := run_table g hg.step n w w' hlog h _ hrate
  set E := v * 4.5 * w.terrain.depth with hEdef
  have hk1 : 1 ≤ k := by
    obtain ⟨z, hz⟩ := hrow
    obtain ⟨i, hi, _⟩ := t.shown _ (step_not_part g _ (by simp)) _ _ hz
    omega
  by_contra hn
  have hk : k = 1 := by
    by_contra hne
    refine hn ⟨(ws 1).st.crystal, ?_⟩
    have := (t.row 1 (by omega)).crystal_fraction
    have hp := t.pos 1 (by omega)
    rw [hpos, hdx] at hp
    norm_num at hp
    rw [hp] at this
    exact this
  subst hk
  have m0 := t.made 0 (by omega)
  have s0 := t.step 0 (by omega)
  have a0 : AcceptedStep g w (ws 1) := by have := t.accepted 0 (by omega); rw [t.start] at this; exact this
  rw [t.start] at m0 s0
  have hd0 : 0 < w.terrain.depth := by linarith
  have hdv : (d 0).v = v := by
    obtain ⟨z, hz⟩ := m0.velocity
    rw [hvel, Except.ok.injEq, Prod.mk.injEq] at hz
    exact hz.1.symm
  have hv0 : 0 < v := by rw [← hdv]; exact m0.moving
  have hwidth : (d 0).width = 4.5 := by
    rw [m0.volume rfl, hdv, hEdef]
    field_simp
  have hq : (d 0).heat = 7.93e-8 * 958 * 2.8e6 * 4.5 := by
    obtain ⟨qs, q1, q2⟩ := t.heat (fun _ _ => rfl) 0 (by omega)
    have hfl : g.models.fluxes = [.rain 7.93e-8 958 2.8e6] := rfl
    rw [hfl] at q1
    cases q1 with
    | cons a1 a2 =>
      cases a2
      have a1 : _ = 7.93e-8 * 958 * 2.8e6 * (d 0).width := a1
      rw [q2, a1, hwidth]
      simp
  have hr : (d 0).rate = 0.896 / (1387.15 - 1237.15) := by
    have := m0.rate
    have e1 : g.models.cryst.rate w.st = PyNum.div (0.896 : ℝ) (1387.15 - 1237.15) := rfl
    rw [e1, div_of_ne (by norm_num), Except.ok.injEq] at this
    exact this.symm
  have hden : g.models.lava.density w.st = 1069.2 := by
    show (2970 : ℝ) * (1.0 - 0.64) = _
    norm_num
  have hlat : g.models.lava.latentHeat = 350000 := rfl
  have hcg : crystalGradient g E w.st (d 0) = 7.93e-8 * 958 * 2.8e6 * 4.5 / (E * 1069.2 * 350000) := by
    unfold crystalGradient; rw [hq, hden, hlat]
  have hEpos : 0 < E := by linarith
  have hcg0 : 0 ≤ crystalGradient g E w.st (d 0) := by rw [hcg]; positivity
  have hcg1 : crystalGradient g E w.st (d 0) ≤ 0.00001 := by
    rw [hcg, div_le_iff₀ (by positivity)]
    nlinarith
  have htg : tempGradient g E w.st (d 0) = -(crystalGradient g E w.st (d 0) / (0.896 / (1387.15 - 1237.15))) := by
    unfold tempGradient crystalGradient
    rw [hr, hden, hlat]
    field_simp
  have hphi0 : 0.104 ≤ (ws 1).st.crystal := by
    rw [s0.crystal, hst, hdx]; dsimp only; rw [← hst]; linarith
  have hphi1 : (ws 1).st.crystal ≤ 0.105 := by
    rw [s0.crystal, hst, hdx]; dsimp only; rw [← hst]; linarith
  have htemp : (1387 : ℝ) ≤ (ws 1).st.temp ∧ (ws 1).st.temp ≤ 1387.15 := by
    rw [s0.temp, htg, hst, hdx]
    dsimp only
    rw [← hst]
    have e2 : crystalGradient g E w.st (d 0) / (0.896 / (1387.15 - 1237.15)) = crystalGradient g E w.st (d 0) * (150 / 0.896) := by
      rw [div_div_eq_mul_div, mul_div_assoc]; norm_num
    rw [e2]
    constructor <;> nlinarith
  have hp1 : (ws 1).st.pos = 10 := by
    have := t.pos 1 le_rfl
    rw [hpos, hdx] at this
    rw [this]; norm_num
  have hter1 : (ws 1).terrain = w.terrain := t.terrain 1 le_rfl
  obtain ⟨sl, hsl, hsl3, hsl12⟩ := rain_slope rate e
  have hsin := rain_sine hsl3 hsl12
  have hbasal : g.models.lava.basalStress (ws 1).terrain (ws 1).st = .ok (w.terrain.depth * 1069.2 * 9.81 * Real.sin sl) := by
    rw [hter1]
    unfold Lava.basalStress
    have hs : w.terrain.slope (ws 1).st.pos = .ok sl := by rw [hp1, hter]; exact hsl
    rw [hs, ok_bind]
    have hd : g.models.lava.density (ws 1).st = 1069.2 := by
      show (2970 : ℝ) * (1.0 - 0.64) = _
      norm_num
    rw [hd]
    have hgr : w.terrain.gravity = 9.81 := by rw [hter]; rfl
    rw [hgr]
    rfl
  have hyield : g.models.lava.yieldStrength (ws 1).st = .ok (yieldLaw (ws 1).st (.basic 1387.15)) := C34_yield_laws _ _ (by linarith)
  have hyle : yieldLaw (ws 1).st (.basic 1387.15) ≤ 80 := by
    show 0.01 * Real.exp (0.08 * (1387.15 - (ws 1).st.temp) - 1) + 6500 * (ws 1).st.crystal ^ (2.85 : ℝ) ≤ 80
    have h1 : Real.exp (0.08 * (1387.15 - (ws 1).st.temp) - 1) ≤ 1 := Real.exp_le_one_iff.mpr (by linarith [htemp.1])
    have h2 : (ws 1).st.crystal ^ (2.85 : ℝ) ≤ (ws 1).st.crystal ^ (2 : ℝ) := Real.rpow_le_rpow_of_exponent_ge (by linarith) (by linarith) (by norm_num)
    have h3 : (ws 1).st.crystal ^ (2 : ℝ) = (ws 1).st.crystal ^ 2 := by norm_num
    rw [h3] at h2
    nlinarith
  have hy0 : 0 ≤ yieldLaw (ws 1).st (.basic 1387.15) := by
    show 0 ≤ 0.01 * Real.exp (0.08 * (1387.15 - (ws 1).st.temp) - 1) + 6500 * (ws 1).st.crystal ^ (2.85 : ℝ)
    have : 0 ≤ (ws 1).st.crystal ^ (2.85 : ℝ) := Real.rpow_nonneg (by linarith) _
    positivity
  have hfin : (ws 1).finished = false := by
    by_contra hc
    have hc : (ws 1).finished = true := by simpa using hc
    rcases (C13_accepted_reason g _ _ a0).1 hc with h1 | h1 | h1 | h1
    · have : (ws 1).st.temp ≤ 1237.15 := h1
      linarith [htemp.1]
    · have h1 : (do let lim ← PyNum.div (1.0 : ℝ) 1.51; return leB lim (ws 1).st.crystal : Except Err Bool) = .ok true := h1
      rw [div_of_ne (by norm_num), ok_bind, pure_ok_iff, leB_real] at h1
      have : (0.2 : ℝ) ≤ 1.0 / 1.51 := by norm_num
      linarith
    · unfold Lava.yieldNotCompatible at h1
      rw [hyield, ok_bind, hbasal, ok_bind, pure_ok_iff, leB_real] at h1
      have : 1.4 * 1069.2 * 9.81 * (1 / 30) ≤ w.terrain.depth * 1069.2 * 9.81 * Real.sin sl :=
        mul_le_mul (by nlinarith) hsin (by norm_num) (by positivity)
      have : (100 : ℝ) ≤ 1.4 * 1069.2 * 9.81 * (1 / 30) := by norm_num
      linarith
    · rw [hter1, hter, hp1] at h1
      have h1 : (30000 : ℝ) ≤ 10 := h1
      norm_num at h1
  rcases t.ended with he | he
  · have := t.finished
    rw [he, hfin] at this
    cases this
  · have hotk : g.models.cryst.solidTemperature < (ws 1).st.temp := by
      show (1237.15 : ℝ) < _
      linarith [htemp.1]
    rcases losing_heat_grows (x0 := 0) (by rw [hter1]; exact hg) (by rw [hp1]; norm_num) (by rw [hter1]; exact hd0) hotk
      (fun _ => by rw [t.effusion 0 (by omega)]; exact hEpos) he with ⟨_, v', x', hv', hle⟩ | ⟨z, hz, hz0⟩
    · have := C24_next_step_moves g w (ws 1) a0 hfin hd0 (fun mu hmu => ?_) (fun t0 ht0 => ?_) v' x' hv'
      · linarith
      · obtain ⟨a, b, c, ha, hb, hc, e⟩ := (C33_bulk_is_product _ _ _).mp hmu
        have hb : PyNum.mpow (1.0 - 1.51 * (ws 1).st.crystal) (-2.5) = .ok b := hb
        have hc : (Except.ok (1.0 : ℝ) : Except Err ℝ) = .ok c := hc
        have hm : g.models.lava.melt = .vft (-4.52) 5558 582.9 := rfl
        have hne : ¬ (ws 1).st.temp = 582.9 := by intro h; linarith [htemp.1]
        rw [hm, (C28_melt_laws _).2.2, if_neg hne, Except.ok.injEq] at ha
        have hpb : 0 < 1.0 - 1.51 * (ws 1).st.crystal := by norm_num; linarith
        have hb := (mpow_ok hb).symm
        have hc := Except.ok.inj hc
        have ha0 : 0 < a := by rw [← ha]; unfold meltVft; positivity
        have hb0 : 0 < b := by rw [← hb]; exact Real.rpow_pos_of_pos hpb _
        rw [e, ← hc]
        norm_num
        positivity
      · rw [hyield, Except.ok.injEq] at ht0
        rw [← ht0]; exact hy0
    · exact absurd (hheat _ _ hz) (not_lt.mpr hz0)

/-- The template with rain only, at any rate at least that at which a channel of the template's depth carries the lava away. -/
theorem rain_run_at : ∃ r0 : ℝ, 0 < r0 ∧ ∀ (rate : Json ℝ) (e : ℝ), rate.toFloat rainEnv = .ok e → r0 ≤ e →
    prepare rainEnv (rainConfig rate) [] = .ok (rainPrepared rate e templateRows) ∧
    Sensible (rainPrepared rate e templateRows).integrator (rainPrepared rate e templateRows).world.terrain 0 ∧
    AtVent (rainPrepared rate e templateRows).integrator (rainPrepared rate e templateRows).world ∧
    ∃ q D, simulateOn depthGrid 3000 (rainPrepared rate e templateRows).integrator (rainPrepared rate e templateRows).world = some (.ok (), q) ∧
      loggedNum q.log 0 "channel_depth" = some D ∧ CompleteRow q.log 0 ∧ CompleteRow q.log 10 ∧
      rainModels.lava.yieldNotCompatible { (rainPrepared rate e templateRows).world.terrain with depth := D }
        (rainPrepared rate e templateRows).world.st = .ok false ∧
      StepIsSmall (rainPrepared rate e templateRows).integrator D (1387.15 - 140) (0.896 / (1387.15 - 1237.15)) q.log ∧
      ∀ x y, loggedNum q.log x "heat_budget" = some y → 0 < y := by
  obtain ⟨mu, hmu0, hmu2, hmu⟩ := rain_viscosity
  set t0 := yieldLaw (⟨0.104, 1387.15, 0, 1, 0⟩ : FlowState ℝ) (.basic 1387.15) with ht0
  have hy71 : t0 ≤ 71 := template_yield
  have hy : ∀ y, rainModels.lava.yieldStrength ⟨0.104, 1387.15, 0, 1, y⟩ = .ok t0 := fun y => C34_yield_laws _ _ (by norm_num)
  have hy0 : 0 ≤ t0 := by
    show 0 ≤ 0.01 * Real.exp (0.08 * (1387.15 - 1387.15) - 1) + 6500 * (0.104 : ℝ) ^ (2.85 : ℝ)
    positivity
  set c := 2970 * (1 - 0.64) * 9.81 * Real.sin (degToRad 12) with hc
  have hc1 : 1300 ≤ c := rain_stress_ge
  have hstress : ∀ d, rainStress d = d * c := fun d => by unfold rainStress; rw [hc]; ring
  have hV : 0 < binghamVelocity 1.4 (1.4 * c) mu t0 := bingham_pos (by norm_num) (by linarith) hmu0 hy0 (by intro h; linarith)
  refine ⟨binghamVelocity 1.4 (1.4 * c) mu t0 * 4.5 * 1.4, by positivity, fun rate e hrate he => ?_⟩
  have he0 : 0 < e := lt_of_lt_of_le (by positivity) he
  have h2 : 2 ≤ (usableRows templateRows).length := by rw [template_usable]; simp
  have hasc : (usableRows templateRows).Pairwise fun a b => a.dist < b.dist := by rw [template_usable]; simp
  have hprep := rain_prepare rainEnv rate e hrate templateRows rfl h2 hasc
  have hin : ∃ r ∈ usableRows templateRows, ∃ r' ∈ usableRows templateRows, r.dist ≤ (0 : ℝ) ∧ (0 : ℝ) ≤ r'.dist := by
    rw [template_usable]; exact ⟨_, List.mem_cons_self, _, List.mem_cons_self, le_rfl, le_rfl⟩
  have hsteep : ∀ q ∈ usableRows templateRows, q.slopeDeg < 180 := by
    rw [template_usable]
    intro q hq
    simp only [List.mem_cons, List.not_mem_nil, or_false] at hq
    rcases hq with rfl | rfl <;> norm_num
  obtain ⟨hrel, hg⟩ := C117_template_sensible _ _ _ _ hprep rainChoice (exConfig_selects _ _) ⟨rfl, rfl, rfl, rfl, rfl, rfl⟩ (rain_physical _ _)
  have hv := template_vent _ _ _ hprep rainChoice (exConfig_selects _ _) ⟨rfl, rfl, rfl, rfl, rfl, rfl⟩ (rain_physical _ _)
    "slope.txt" templateRows (Or.inl rfl) rfl hin hsteep
  refine ⟨hprep, hg, hv, ?_⟩
  set pr := rainPrepared rate e templateRows with hpr
  have hst : ∃ y, pr.world.st = ⟨0.104, 1387.15, 0, 1, y⟩ := ⟨_, rfl⟩
  obtain ⟨y0, hst⟩ := hst
  -- the depth
  obtain ⟨w1, h1, hv1, hl1, hit1, hst1, ht1, _⟩ := C117_depth_search pr.world hg le_rfl hv
  have hne : pr.world.terrain.effusionRateInit ≠ 0 := he0.ne'
  have hs := h1
  unfold initEffusionRate at hs
  rw [search_of_rate _ _ _ hne] at hs
  obtain ⟨k, v, y, hk, hvel, _, hreach, ew⟩ := search_found pr.integrator.models.lava (fun _ _ => rfl) depthGrid grid_nonempty _ _ hs
  rw [depthGrid_length] at hk
  rw [depthGrid_getD k hk] at hvel hreach ew
  set D := gridDepth k with hD
  have hD0 : 0 < D := by rw [hD]; unfold gridDepth; positivity
  obtain ⟨t0', tb, mu', f1, f2, f3, _, _, _, f4, _⟩ := (meanVelocity_ok_iff _ _ _ _ _).mp hvel
  have f1 : rainModels.lava.yieldStrength pr.world.st = .ok t0' := f1
  have f2 : rainModels.lava.basalStress { pr.world.terrain with depth := D } pr.world.st = .ok tb := f2
  have f3 : rainModels.lava.bulkViscosity pr.world.st = .ok mu' := f3
  rw [hst] at f1 f2 f3
  rw [hy, Except.ok.injEq] at f1
  rw [rain_basal, Except.ok.injEq, hstress] at f2
  rw [hmu, Except.ok.injEq] at f3
  subst f1 f2 f3
  have hdeep : t0 < D * c := by
    by_contra hle
    have hle := not_lt.mp hle
    rcases hreach with hr | hr
    · have := stuck_rate hD0 hc1 hmu0 hy0 hy71 hle
      rw [f4] at hr
      have hr : e ≤ binghamVelocity D (D * c) mu t0 * 4.5 * D := hr
      linarith
    · rw [depthGrid_length] at hr
      have hk : k = 49989 := by omega
      have : D = 49.999 := by rw [hD, hk]; unfold gridDepth; norm_num
      rw [this] at hle
      linarith
  have hv0 : 0 < v := by rw [f4]; exact bingham_pos hD0 (by positivity) hmu0 hy0 (by intro h; linarith)
  have hcompat : rainModels.lava.yieldNotCompatible { pr.world.terrain with depth := D } pr.world.st = .ok false := by
    unfold Lava.yieldNotCompatible
    rw [hst, hy, ok_bind, rain_basal, ok_bind, pure_ok_iff, ← Bool.not_eq_true, leB_real, not_le, hstress]
    exact hdeep
  -- the loop
  have hg1 : Sensible pr.integrator w1.terrain 0 := by rw [ht1]; exact hg.withDepth _
  have hp1 : w1.st.pos = 0 := by rw [hst1]; exact congrArg FlowState.pos hst
  have hi1 : w1.iteration = 0 := hit1
  obtain ⟨res, w', hloop, hend⟩ := C117_loop w1 hg1 hp1.ge hv1 (fun h => absurd hi1 h) (fun h => by cases h) 3000 (by norm_num)
    (by rw [ht1, hp1]; show ((30000 : ℝ) - 0) / 10 ≤ _; norm_num)
  have hres : res = .ok () := by
    rcases hend with ⟨h, _⟩ | ⟨_, hpk⟩
    · exact h
    · exact hpk.elim
  subst hres
  have hsim : simulateOn depthGrid 3000 pr.integrator pr.world = some (.ok (), w') := by
    unfold simulateOn
    unfold initEffusionRate at h1
    rw [h1]
    exact hloop
  have hdep : w1.terrain.depth = D := by rw [ew]
  have hvel1 : pr.integrator.models.lava.meanVelocity w1.terrain w1.st = .ok (v, y) := by
    rw [ew]
    exact (meanVelocity_strain _ (fun _ _ => rfl) _ _ _).trans hvel
  have hrow := C119_first_row (g := pr.integrator) w1 w' hg1 hp1.ge hv1 hl1 (by rw [ew]; rfl) hi1 rfl (fun _ _ => rfl) v y hvel1 hv0
    (fun width qs hw h => by
      have hfl : pr.integrator.models.fluxes = [.rain 7.93e-8 958 2.8e6] := rfl
      rw [hfl] at h
      cases h with
      | cons a1 a2 =>
        cases a2
        have a1 : _ = 7.93e-8 * 958 * 2.8e6 * width := a1
        rw [a1]
        simp only [List.sum_cons, List.sum_nil, add_zero]
        positivity) 3000 hloop
  rw [hp1] at hrow
  obtain ⟨t1, t2⟩ := rain_table (g := pr.integrator) (a := 7.93e-8) (b := 958) (c := 2.8e6) (r := 0.896 / (1387.15 - 1237.15)) (by norm_num) rfl rfl w1 w' hg1
    ⟨by norm_num, fun s => by
      show PyNum.div (0.896 : ℝ) (1387.15 - 1237.15) = _
      rw [div_of_ne (by norm_num)]⟩ hp1.ge hv1 hl1 hi1 3000 hloop (1387.15 - 140)
  have hpl := plausible_loop w1 w' hg1 hp1.ge hv1 hl1 (fun h => absurd hi1 h) (fun h => by cases h) 3000 hloop 0 hrow
  obtain ⟨z, z1, _, z2⟩ := hpl.channel_depth
  rw [hdep] at z2
  rw [z2] at z1
  have hdeep2 : 1.4 ≤ D := by
    by_contra hlt
    have hlt := not_le.mp hlt
    rcases hreach with hr | hr
    · have hmono := bingham_mono (mu := mu) (t0 := t0) hD0 hlt.le (by positivity : 0 < D * c) (mul_le_mul_of_nonneg_right hlt.le (by linarith)) hmu0 hy0 hdeep.le
      rw [f4] at hr hv0
      have hr : e ≤ binghamVelocity D (D * c) mu t0 * 4.5 * D := hr
      nlinarith
    · rw [depthGrid_length] at hr
      have hk : k = 49989 := by omega
      have : D = 49.999 := by rw [hD, hk]; unfold gridDepth; norm_num
      rw [this] at hlt
      norm_num at hlt
  have hrow10 : CompleteRow w'.log 10 := by
    have hE1 : 1 ≤ v * 4.5 * D := by rw [f4]; exact rain_rate_ge hdeep2 hc1 hmu0 hmu2 hy0 hy71
    exact rain_second_row rate e w1 w' hg1 hv1 hl1 hi1 (by rw [ew]; exact ⟨_, rfl⟩) (by rw [ew]) v y hvel1 (by rw [hdep]; exact hE1) (by rw [hdep]; exact hdeep2) hrow t2 3000 hloop
  refine ⟨w', D, hsim, z1, hrow, hrow10, hcompat, ?_, t2⟩
  rw [← hdep]; exact t1

theorem rain_run : ∃ r0 : ℝ, 0 < r0 ∧ ∀ e, r0 ≤ e →
    prepare rainEnv (rainConfig (.num e)) [] = .ok (rainPrepared (.num e) e templateRows) ∧
    Sensible (rainPrepared (.num e) e templateRows).integrator (rainPrepared (.num e) e templateRows).world.terrain 0 ∧
    AtVent (rainPrepared (.num e) e templateRows).integrator (rainPrepared (.num e) e templateRows).world ∧
    ∃ q D, run 3000 rainEnv "rain.json" "out" ⟨[("rain.json", rainConfig (.num e))], [], []⟩ = some (.ok (), q) ∧
      loggedNum q.log 0 "channel_depth" = some D ∧ CompleteRow q.log 0 ∧
      rainModels.lava.yieldNotCompatible { (rainPrepared (.num e) e templateRows).world.terrain with depth := D }
        (rainPrepared (.num e) e templateRows).world.st = .ok false ∧
      StepIsSmall (rainPrepared (.num e) e templateRows).integrator D (1387.15 - 140) (0.896 / (1387.15 - 1237.15)) q.log ∧
      ∀ x y, loggedNum q.log x "heat_budget" = some y → 0 < y := by
  obtain ⟨r0, h0, h⟩ := rain_run_at
  refine ⟨r0, h0, fun e he => ?_⟩
  obtain ⟨a1, a2, a3, w', D, b1, b2, b3, _, b4⟩ := h (.num e) e rfl he
  obtain ⟨q, g1, g2, _⟩ := C04_run_writes (fun c => beq_self_eq_true c) depthGrid 3000 rainEnv "rain.json" "out" ⟨[("rain.json", rainConfig (.num e))], [], []⟩
    (rainConfig (.num e)) _ w' (by rw [lookup_cons_eq]; exact if_pos rfl) a1 b1
  rw [← g2] at b2 b3 b4
  exact ⟨a1, a2, a3, q, D, g1, b2, b3, b4⟩

/-- **C121** on configuration files: the template with rain as its only heat loss, run at two effusion rates, the second larger by one cubic metre per second. -/
example : ∃ (r : ℝ) (q q' : Proc ℝ) (D D' : ℝ), 0 < r ∧
    run 3000 rainEnv "rain.json" "out" ⟨[("rain.json", rainConfig (.num r))], [], []⟩ = some (.ok (), q) ∧
    run 3000 rainEnv "rain.json" "out" ⟨[("rain.json", rainConfig (.num (r + 1)))], [], []⟩ = some (.ok (), q') ∧
    loggedNum q.log 0 "channel_depth" = some D ∧ loggedNum q'.log 0 "channel_depth" = some D' ∧ D ≤ D' ∧ CompleteRow q.log 0 ∧
    (∀ x, CompleteRow q.log x → CompleteRow q'.log x) ∧
    (∀ x v v', BothShow q'.log q.log "mean_velocity" x v v' → v' ≤ v) := by
  obtain ⟨r, hr, h⟩ := rain_run
  obtain ⟨hprep, hg, hv, q, D, a1, a2, a3, a4, _⟩ := h r le_rfl
  obtain ⟨_, _, _, q', D', b1, b2, _, _, b3, b4⟩ := h (r + 1) (by linarith)
  obtain ⟨s1, s2⟩ := rain_same rainEnv (.num r) (.num (r + 1))
  have hev : Everyday (rainPrepared (.num r) r templateRows).integrator 0 (0.896 / (1387.15 - 1237.15)) :=
    template_everyday rainModels rfl (by
      intro f hf
      have hf : f ∈ [(Flux.rain 7.93e-8 958 2.8e6 : Flux ℝ)] := hf
      rw [List.mem_singleton.mp hf]
      show (0 : ℝ) ≤ 7.93e-8 * 958 * 2.8e6
      norm_num) false 10 0
  obtain ⟨c0, c1, c2, c3, c4⟩ := C121_run 3000 3000 rainEnv "rain.json" "out" _ _ (rainConfig (.num r)) (rainConfig (.num (r + 1)))
    (by rw [lookup_cons_eq]; exact if_pos rfl) (by rw [lookup_cons_eq]; exact if_pos rfl) rfl rfl rainChoice (exConfig_selects _ _) s1 s2 r (r + 1)
    ⟨_, ⟨_, rfl, rfl⟩, rfl⟩ ⟨_, ⟨_, rfl, rfl⟩, rfl⟩ hr.ne' (by linarith) (by linarith) _ hprep hg hv _ hev (fun h => by cases h) q q' a1 b1 D D' a2 b2 a4 b3
  exact ⟨r, q, q', D, D', hr, a1, b1, a2, b2, c0, a3, c4 b4, c3⟩

end PyFlowGo
