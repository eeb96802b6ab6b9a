import Verif.Props.RunConfig
import Verif.Proofs.ExampleRun
/-
  A complete run of a concrete configuration, from the JSON file to the result file, with the rain flux or with
  no flux at all.
-/
namespace PyFlowGo
open Spec

/-- The numbers of the example: start at `pos`, channel of length `len`, 3 m/s2, 1 m deep and wide. -/
noncomputable def exNum (pos len : ℝ) (_ : String) (key : String) : ℝ :=
  match key with
  | "gravity" => 3
  | "max_channel_length" => len
  | "position" => pos
  | "eruption_temperature" => 1000
  | "buffer" => 0
  | "vesicle_fraction" => 0
  | "crystal_fraction" => 0
  | "solid_temperature" => 0
  | "rainfall_rate" => 1 / 100
  | "alpha" => 0
  | "crust_temperature" => 500
  | "air_temperature" => 300
  | _ => 1

/-- The names of the example: `exChoice`, with rain or not. -/
def exChoiceRain (rain cryst : String) : Choice := { exChoice with rain := rain, cryst := cryst }

/-- The models of the example. -/
noncomputable def exModelsOf (cryst : CrystModel ℝ) (fluxes : List (Flux ℝ)) : Models ℝ :=
  { exModels with cryst := cryst, fluxes := fluxes }

theorem exNumber {extra : List (String × Json ℝ)} (rate : Json ℝ) (pos len : ℝ) (c : Choice) (e : Req) (he : e ∈ allReq) :
    NumberAt exEnv (exConfigM extra rate (exNum pos len) c) e.1 e.2 (exNum pos len e.1 e.2) := exConfig_number exEnv _ c e he

theorem exModels_from {extra : List (String × Json ℝ)} (rate : Json ℝ) (pos len : ℝ) (rain cryst : String) (m : CrystModel ℝ) (fluxes : List (Flux ℝ))
    (hm : CrystFrom exEnv (exConfigM extra rate (exNum pos len) (exChoiceRain rain cryst)) cryst m)
    (hf : SwitchFrom rain fluxes (fun f => f = .rain (1 / 100) 1 1)) :
    factory exEnv (exConfigM extra rate (exNum pos len) (exChoiceRain rain cryst)) = .ok (exModelsOf m fluxes) := by
  have N := exNumber (extra := extra) rate pos len (exChoiceRain rain cryst)
  refine (C55_models_come_from_the_configuration _ _ _).mpr ⟨exChoiceRain rain cryst, exConfig_selects _ _, hm, ?_, ?_, ?_, ?_, ?_⟩
  · exact ⟨N ("convection_parameters", "air_temperature") (by decide), N ("convection_parameters", "wind_speed") (by decide),
      N ("convection_parameters", "ch_air") (by decide), N ("convection_parameters", "air_density") (by decide),
      N ("convection_parameters", "air_specific_heat_capacity") (by decide)⟩
  · exact ⟨⟨_, _, N ("eruption_condition", "viscosity_eruption") (by decide),
        N ("eruption_condition", "eruption_temperature") (by decide), rfl⟩,
      ⟨_, N ("lava_state", "vesicle_fraction") (by decide), rfl⟩, rfl, rfl,
      ⟨_, N ("eruption_condition", "eruption_temperature") (by decide), rfl⟩,
      N ("eruption_condition", "eruption_temperature") (by decide), N ("thermal_parameters", "buffer") (by decide),
      N ("crystals_parameters", "latent_heat_of_crystallization") (by decide), N ("lava_state", "density_dre") (by decide),
      _, N ("relative_viscosity_parameters", "max_packing") (by decide)⟩
  · exact ⟨_, _, N ("thermal_parameters", "alpha") (by decide), N ("thermal_parameters", "crust_cover_fraction") (by decide), rfl⟩
  · exact ⟨_, N ("thermal_parameters", "crust_temperature") (by decide), rfl⟩
  · refine ⟨[], [], [], fluxes, [], [], by simp [exModelsOf], rfl, Or.inr ⟨rfl, rfl⟩, Or.inr ⟨rfl, rfl⟩, ?_,
      Or.inr ⟨rfl, rfl⟩, Or.inr ⟨rfl, rfl⟩, fun h => absurd (show ("no" : String) = "yes" from h) (by decide)⟩
    rcases hf with ⟨h1, f, rfl, h2⟩ | h
    · exact Or.inl ⟨h1, _, ⟨_, _, _, N ("rain_parameters", "rainfall_rate") (by decide),
        N ("rain_parameters", "density_water") (by decide), N ("rain_parameters", "latent_heat_vaporization") (by decide), rfl⟩, h2⟩
    · exact Or.inr h

/-- The channel of the example. -/
noncomputable def exTerrainOf (e len : ℝ) : Terrain ℝ :=
  { effusionRateInit := e, depth := 1, width := 1, gravity := 3, defaultSlope := degToRad 2.657414,
    spline := some ⟨[(0, degToRad 90), (2000, degToRad 90)]⟩, maxLength := len, smoothing := false,
    smoothingPoints := -1.0 }

theorem exTerrainOf_slope (e len x : ℝ) : (exTerrainOf e len).slope x = .ok (Real.pi / 2) := by
  unfold Terrain.slope exTerrainOf Spline.eval
  simp only [evalKnots, segment]
  rw [div_of_ne (by norm_num), ok_bind, pure_ok_iff]
  unfold degToRad
  ring

/-- The prepared run. -/
noncomputable def exPreparedM (mass : Bool) (rate : Json ℝ) (e pos len : ℝ) (m : Models ℝ) (log : Log (Cell ℝ)) : Prepared ℝ :=
  { cfg := { rate := rate, lavaName := .str "example", slopeFile := .str "slope.txt", stepSize := 1,
             massConservation := mass }
    integrator := { dx := 1, models := m, massConservation := mass }
    world := newWorld (exTerrainOf e len) { crystal := 0, temp := 1000, pos := pos, time := 1, strain := 3 * e } log }

/-- The prepared run in volume mode. -/
noncomputable abbrev exPrepared (rate : Json ℝ) (e pos len : ℝ) (m : Models ℝ) (log : Log (Cell ℝ)) : Prepared ℝ :=
  exPreparedM false rate e pos len m log

theorem exPrepareM (extra : List (String × Json ℝ)) (rate : Json ℝ) (e pos len : ℝ) (hrate : rate.toFloat exEnv = .ok e) (rain cryst : String) (m : CrystModel ℝ) (fluxes : List (Flux ℝ))
    (hm : CrystFrom exEnv (exConfigM extra rate (exNum pos len) (exChoiceRain rain cryst)) cryst m)
    (hf : SwitchFrom rain fluxes (fun f => f = .rain (1 / 100) 1 1)) (log : Log (Cell ℝ)) :
    prepare exEnv (exConfigM extra rate (exNum pos len) (exChoiceRain rain cryst)) log =
      .ok (exPreparedM (massConservationOf ((lookup extra "mass_conservation").getD (.bool false))) rate e pos len
        (exModelsOf m fluxes) log) := by
  have N := exNumber (extra := extra) rate pos len (exChoiceRain rain cryst)
  rw [C55_run_starts_from_the_configuration]
  refine ⟨⟨⟨_, rfl, rfl⟩, ⟨_, rfl, rfl⟩, ⟨_, rfl, rfl⟩, ⟨_, ⟨_, rfl, rfl⟩, rfl⟩, _, ⟨_, rfl, rfl⟩, rfl⟩,
    ⟨{ exTerrainOf e len with spline := none }, "slope.txt", [⟨0, 0, 0, 0, 90⟩, ⟨0, 0, 0, 2000, 90⟩],
      ⟨⟨_, ⟨_, rfl, rfl⟩, hrate⟩, N ("terrain_conditions", "depth") (by decide), N ("terrain_conditions", "width") (by decide),
        N ("terrain_conditions", "gravity") (by decide), N ("terrain_conditions", "max_channel_length") (by decide),
        ⟨_, ⟨_, _, rfl, rfl, rfl⟩, ?_⟩, fun h => ?_, fun _ => rfl, rfl⟩, rfl, Or.inl rfl, rfl, ?_⟩,
    exModels_from rate pos len rain cryst m fluxes hm hf, rfl, rfl, N ("lava_state", "position") (by decide),
    N ("lava_state", "time") (by decide), N ("lava_state", "crystal_fraction") (by decide),
    N ("eruption_condition", "eruption_temperature") (by decide), one_ne_zero, one_ne_zero, ?_, rfl, ?_, rfl, rfl, rfl⟩
  · simp [exTerrainOf]
  · simp [exTerrainOf] at h
  · have hk : keepSlopeLines [(⟨0, 0, 0, 0, 90⟩ : SlopeLine ℝ), ⟨0, 0, 0, 2000, 90⟩] =
        [⟨0, 0, 0, 0, 90⟩, ⟨0, 0, 0, 2000, 90⟩] := by
      unfold keepSlopeLines
      have : leB (90 : ℝ) 0.1 = false := by
        rw [Bool.eq_false_iff]; simp only [ne_eq, leB_real]; norm_num
      simp [this]
    have hmake : Spline.make [(0 : ℝ), 2000] [degToRad 90, degToRad 90] =
        .ok ⟨[(0, degToRad 90), (2000, degToRad 90)]⟩ := by
      rw [make_ok_iff]
      exact ⟨rfl, by simp, by simp [Ascending], rfl⟩
    unfold Terrain.readSlope
    rw [hk]
    dsimp only
    rw [mapM_eq_map _ (fun r : SlopeLine ℝ => degToRad r.slopeDeg) _ (fun r _ => radians_real r.slopeDeg)]
    simp only [exTerrainOf, ok_bind, Bool.false_eq_true, if_false, List.map_cons, List.map_nil, hmake]
    rfl
  · simp [exPreparedM, newWorld, exTerrainOf]
  · show (0.0 : ℝ) = 0; norm_num

theorem exPrepare (rate : Json ℝ) (e pos len : ℝ) (hrate : rate.toFloat exEnv = .ok e) (rain cryst : String) (m : CrystModel ℝ) (fluxes : List (Flux ℝ))
    (hm : CrystFrom exEnv (exConfigR rate (exNum pos len) (exChoiceRain rain cryst)) cryst m)
    (hf : SwitchFrom rain fluxes (fun f => f = .rain (1 / 100) 1 1)) (log : Log (Cell ℝ)) :
    prepare exEnv (exConfigR rate (exNum pos len) (exChoiceRain rain cryst)) log =
      .ok (exPrepared rate e pos len (exModelsOf m fluxes) log) :=
  exPrepareM [] rate e pos len hrate rain cryst m fluxes hm hf log

theorem exBasal (e len : ℝ) (s : FlowState ℝ) :
    (exLava 1 .er .ryerson).basalStress (exTerrainOf e len) s = .ok 3 := by
  unfold Lava.basalStress
  rw [exLava_density, exTerrainOf_slope, ok_bind, pure_ok_iff]
  simp [exTerrainOf]

theorem exBulk (s : FlowState ℝ) (h1 : s.crystal = 0) (h2 : s.temp = 1000) :
    (exLava 1 .er .ryerson).bulkViscosity s = .ok 1 := by
  have hm : (exLava 1 .er .ryerson).melt.viscosity s = .ok 1 := by
    simp [MeltModel.viscosity, exLava, h2]
  have hr : (exLava 1 .er .ryerson).rel.relative s = .ok 1 := by
    show (RelModel.er : RelModel ℝ).relative s = _
    unfold RelModel.relative
    simp only [h1]
    rw [mpow_of_pos _ (by norm_num)]
    norm_num
  have hb : (exLava 1 .er .ryerson).bub.relative s = .ok 1 := by
    simp [exLava, BubModel.relative]; norm_num
  unfold Lava.bulkViscosity
  rw [hm, ok_bind, hr, ok_bind, hb, ok_bind, pure_ok_iff]
  norm_num

theorem exYield (s : FlowState ℝ) (h1 : s.crystal = 0) : (exLava 1 .er .ryerson).yieldStrength s = .ok 0 := by
  show (YieldModel.ryerson : YieldModel ℝ).strength s = _
  unfold YieldModel.strength ryersonTerm
  simp only [h1]
  rw [pow_of_nonneg le_rfl (by norm_num), Real.zero_rpow (by norm_num)]
  simp [pure_eq_ok]

theorem exVel (e len : ℝ) (s : FlowState ℝ) (h1 : s.crystal = 0) (h2 : s.temp = 1000) :
    (exLava 1 .er .ryerson).meanVelocity (exTerrainOf e len) s = .ok (1, 3) := by
  rw [meanVelocity_ok_iff]
  refine ⟨0, 3, 1, exYield s h1, exBasal e len s, exBulk s h1 h2, by norm_num, by norm_num,
    by norm_num [exTerrainOf], ?_, by norm_num [exTerrainOf]⟩
  norm_num [binghamVelocity, exTerrainOf]

theorem exWidth (e len : ℝ) (w : World ℝ) (hw : w.terrain = exTerrainOf e len) (hi : w.iteration = 0) :
    channelWidth false (w.stepEffusion 1) w.fluxRate 1 w.terrain.depth ((exLava 1 .er .ryerson).density w.st) = .ok 1 := by
  have hE : w.stepEffusion 1 = 1 := by
    norm_num [World.stepEffusion, hw, hi, exTerrainOf]
  rw [hE, exLava_density, hw]
  simp only [channelWidth, Bool.false_eq_true, if_false, exTerrainOf]
  rw [div_of_ne (by norm_num)]; norm_num

/-- The integrator of the example. -/
noncomputable def exG (m : Models ℝ) : Integrator ℝ := { dx := 1, models := m, massConservation := false }

/-- A world in which the first step of the example is about to happen. -/
structure ExStart (e pos len : ℝ) (log : Log (Cell ℝ)) (w : World ℝ) : Prop where
  terrain : w.terrain = exTerrainOf e len
  iteration : w.iteration = 0
  finished : w.finished = false
  log : w.log = log
  st : ∃ x, w.st = { crystal := 0, temp := 1000, pos := pos, time := 1, strain := x }

/-- The first step of the example with rain is accepted; it ends the run if the channel is at most 1 m longer
    than the starting position. -/
theorem exStep (e pos len : ℝ) (log : Log (Cell ℝ)) (hlen : len ≤ pos + 1) (w : World ℝ) (h0 : ExStart e pos len log w) :
    ∃ w', AcceptedStep (exG (exModelsOf (.basic 0 1 0 1000) [.rain (1 / 100) 1 1])) w w' ∧ w'.finished = true := by
  generalize hg : exG (exModelsOf (.basic 0 1 0 1000) [.rain (1 / 100) 1 1]) = g
  obtain ⟨wt, wi, wf, _, x0, ws⟩ := h0
  have gl : g.models.lava = exLava 1 .er .ryerson := by rw [← hg]; rfl
  have gf : g.models.fluxes = [.rain (1 / 100) 1 1] := by rw [← hg]; rfl
  have gc : g.models.cryst = .basic 0 1 0 1000 := by rw [← hg]; rfl
  have gcr : g.models.crust = .constant 500 := by rw [← hg]; rfl
  have gdx : g.dx = 1 := by rw [← hg]; rfl
  have gm : g.massConservation = false := by rw [← hg]; rfl
  have hE : w.stepEffusion 1 = 1 := by norm_num [World.stepEffusion, wt, wi, exTerrainOf]
  obtain ⟨w1, hheat⟩ := rain_budget g.models (1 / 100) 1 1 1 w.terrain.depth
    { w with st := { w.st with strain := 3 }, effusionRate := w.stepEffusion 1 } gf
  obtain ⟨y, es0, ht, _, _⟩ := heatBudget_ok hheat
  have f1 : w1.terrain = exTerrainOf e len := by rw [ht, ← wt]; rfl
  have f2 : w1.st.crystal = 0 := by rw [ht]; show w.st.crystal = 0; rw [ws]
  have f3 : w1.st.temp = 1000 := by rw [ht]; show w.st.temp = 1000; rw [ws]
  have hphi : w.st.crystal + -10 * (-(1 / 1000)) * g.dx = 1 / 100 := by rw [ws, gdx]; norm_num
  obtain ⟨t0, hy, hy0, hy3⟩ := ryerson_small
    { crystal := w.st.crystal + -10 * (-(1 / 1000)) * g.dx, temp := w.st.temp + -10 * g.dx, pos := w.st.pos + g.dx,
      time := w.st.time + 1, strain := 3 } hphi
  obtain ⟨w', h1, h2, h3, _, _⟩ := singleStep_forward g w 1 3 1 (Real.pi / 2) (1 / 100 * 1 * 1 * 1)
    (1 / 1000) (-10) w1 1 500 1 3 0 3 1 3 true (by rw [gl, wt]; exact exVel e len _ (by rw [ws]) (by rw [ws]))
    (by rw [Bool.eq_false_iff]; simp only [ne_eq, leB_real]; norm_num)
    (by rw [gm, gl]; exact exWidth e len w wt wi)
    (by rw [wt]; exact exTerrainOf_slope _ _ _) hheat
    (by
      rw [gc]
      show PyNum.div (1 : ℝ) (1000 - 0) = _
      rw [div_of_ne (by norm_num)]; norm_num)
    (by
      rw [hE, gl, exLava_density]
      show PyNum.div _ (1 * 1 * 1 * (1 / 1000)) = _
      rw [div_of_ne (by norm_num)]; norm_num)
    (by
      rw [hphi, ws, Bool.eq_false_iff]; simp only [ne_eq, leB_real]; norm_num)
    (by rw [gl]; exact exBulk _ f2 f3)
    (by rw [gcr]; rfl) (by rw [f1, gl]; exact exVel e len _ f2 f3) (by rw [gl]; exact exYield _ f2)
    (by rw [f1, gl]; exact exBasal e len _)
    (by rw [gdx, div_of_ne (by norm_num)]; norm_num)
    (by rw [wt]; show PyNum.div (3.0 * 1 : ℝ) 1 = _; rw [div_of_ne (by norm_num)]; norm_num)
    (by
      unfold stopTest
      rw [if_neg]
      · have hnc : g.models.lava.notCompatible
          { crystal := w.st.crystal + -10 * (-(1 / 1000)) * g.dx, temp := w.st.temp + -10 * g.dx, pos := w.st.pos + g.dx,
            time := w.st.time + 1, strain := 3 } = .ok false := by
          rw [gl]
          show (RelModel.er : RelModel ℝ).notCompatible _ = _
          unfold RelModel.notCompatible
          dsimp only
          rw [hphi, div_of_ne (by norm_num), ok_bind, pure_ok_iff, Bool.eq_false_iff]
          simp only [ne_eq, leB_real]
          norm_num
        rw [hnc, ok_bind]
        simp only [Bool.false_eq_true, if_false]
        have hyc : g.models.lava.yieldNotCompatible w.terrain
          { crystal := w.st.crystal + -10 * (-(1 / 1000)) * g.dx, temp := w.st.temp + -10 * g.dx, pos := w.st.pos + g.dx,
            time := w.st.time + 1, strain := 3 } = .ok false := by
          rw [gl, wt]
          unfold Lava.yieldNotCompatible
          have : (exLava 1 .er .ryerson).yieldStrength
            { crystal := w.st.crystal + -10 * (-(1 / 1000)) * g.dx, temp := w.st.temp + -10 * g.dx, pos := w.st.pos + g.dx,
              time := w.st.time + 1, strain := 3 } = .ok t0 := hy
          rw [this, ok_bind, exBasal, ok_bind, pure_ok_iff, Bool.eq_false_iff]
          simpa only [ne_eq, leB_real, not_le] using hy3
        rw [hyc, ok_bind]
        simp only [Bool.false_eq_true, if_false, pure_ok_iff]
        rw [leB_real, wt, gdx, ws]
        exact hlen
      · rw [leB_real, gc, ws, gdx]
        show ¬ ((1000 : ℝ) + -10 * 1 ≤ 0)
        norm_num)
  exact ⟨w', ⟨wf, h1, h2⟩, by rw [h3]; simp⟩

end PyFlowGo
