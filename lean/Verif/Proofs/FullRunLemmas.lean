import Verif.Proofs.ExampleFullRun
import Verif.Props.RunLog
/-
  Complete example runs: one accepted step with the rain flux, and a run without any flux, which gives up
  its first step after the heat budget.
-/
namespace PyFlowGo
open Spec

section
variable {α : Type} [Add α] [Sub α] [Mul α] [Neg α] [OfScientific α] [PyNum α]

/-- A step is given up when everything up to the derivatives succeeds and the crystal fraction does not
    increase. -/
theorem singleStep_noGrowth (g : Integrator α) (w : World α) (v x width slope heat rate dtempDx : α)
    (w1 : World α)
    (hv : g.models.lava.meanVelocity w.terrain w.st = .ok (v, x)) (hle : leB v 0.0 = false)
    (hwidth : channelWidth g.massConservation (w.stepEffusion v) w.fluxRate v w.terrain.depth
      (g.models.lava.density w.st) = .ok width)
    (hslope : w.terrain.slope w.st.pos = .ok slope)
    (hheat : heatBudget g.models width w.terrain.depth
      { w with st := { w.st with strain := x }, effusionRate := w.stepEffusion v } = (.ok heat, w1))
    (hrate : g.models.cryst.rate w.st = .ok rate)
    (hdtemp : PyNum.div (-heat) (w.stepEffusion v * g.models.lava.density w.st *
      g.models.lava.latentHeat * rate) = .ok dtempDx)
    (hphi : leB (w.st.crystal + dtempDx * (-rate) * g.dx) w.st.crystal = true) :
    singleStep g w = (.ok (), { w1 with finished := true }) := by
  obtain ⟨y, es0, ht, _, _⟩ := heatBudget_ok hheat
  have f2 : w1.st = { w.st with strain := y } := by rw [ht]; rfl
  have hcr : w1.st.crystal = w.st.crystal := by rw [f2]
  unfold singleStep
  rw [PyM.bind_of_ok (meanVelocityM_forward hv), hle]
  simp only [Bool.false_eq_true, if_false]
  rw [PyM.bind_of_ok (stepCompute_forward g w v x width slope heat rate dtempDx w1 hwidth hslope hheat hrate
    hdtemp), PyM.bind_of_ok (PyM.get_apply _)]
  dsimp only
  rw [hcr, hphi]
  rfl

theorem runLoop_one (g : Integrator α) (w w' : World α) (hw : w.finished = false)
    (h : singleStep g w = (.ok (), w')) (hf : w'.finished = true) : runLoop g 1 w = some (.ok (), w') := by
  unfold runLoop
  rw [hw, h]
  simp only [Bool.false_eq_true, if_false]
  unfold runLoop
  rw [hf]; rfl

/-- Without a prescribed effusion rate the depth search does nothing. -/
theorem simulate_noSearch (grid : List α) (fuel : Nat) (g : Integrator α) (w : World α)
    (h : eqB w.terrain.effusionRateInit 0.0 = true) : simulateOn grid fuel g w = runLoop g fuel w := by
  unfold simulateOn initEffusionRateOn
  rw [PyM.bind_of_ok (PyM.get_apply _), h]
  rfl

/-- What `run` does once it is prepared and the simulation has ended. -/
theorem runOn_of {grid : List α} {fuel : Nat} {env : Env α} {jsonFile folder : String} {p : Proc α} {data : Json α}
    {pr : Prepared α} {w : World α} (hdata : lookup p.json (env.canon jsonFile) = some data)
    (hprep : prepare env data p.log = .ok pr) (hsim : simulateOn grid fuel pr.integrator pr.world = some (.ok (), w)) :
    (∀ t, writeValues w.log = .ok (some t) → runOn grid fuel env jsonFile folder p = some (.ok (),
      { p with log := w.log, results :=
          (env.canon (resultFileName folder (pr.cfg.lavaName.show env) (pr.cfg.rate.show env)), t) :: p.results })) ∧
    (∀ e, writeValues w.log = .error e → runOn grid fuel env jsonFile folder p = some (.error e, { p with log := w.log })) := by
  constructor
  · intro t ht
    unfold runOn
    rw [hdata]; dsimp only; rw [hprep]; dsimp only; rw [hsim]; dsimp only; rw [ht]; rfl
  · intro e he
    unfold runOn
    rw [hdata]; dsimp only; rw [hprep]; dsimp only; rw [hsim]; dsimp only; rw [he]
end

theorem exStart_new (rate : Json ℝ) (e pos len : ℝ) (m : Models ℝ) (log : Log (Cell ℝ)) :
    ExStart e pos len log (exPrepared rate e pos len m log).world := ⟨rfl, rfl, rfl, rfl, _, rfl⟩

/-- The depth search of the example leaves the depth at 1 m: it does nothing for the rate 0, and the grid with
    the single depth 1 m allows no other. -/
theorem exSearch (e pos len : ℝ) (log : Log (Cell ℝ)) (w : World ℝ) (h0 : ExStart e pos len log w) (grid : List ℝ)
    (hgrid : e = 0 ∨ grid = [1]) :
    ∃ w', initEffusionRateOn grid (exLava 1 .er .ryerson) w = (.ok (), w') ∧ ExStart e pos len log w' := by
  obtain ⟨wt, wi, wf, wl, x0, ws⟩ := h0
  unfold initEffusionRateOn
  rw [PyM.bind_of_ok (PyM.get_apply _)]
  by_cases he : e = 0
  · have : eqB w.terrain.effusionRateInit 0.0 = true := by
      rw [eqB_real, wt]; show e = 0.0; rw [he]; norm_num
    rw [this]
    exact ⟨w, rfl, wt, wi, wf, wl, x0, ws⟩
  · have hne : eqB w.terrain.effusionRateInit 0.0 = false := by
      rw [Bool.eq_false_iff, ne_eq, eqB_real, wt]
      show ¬ e = 0.0
      intro h; apply he; rw [h]; norm_num
    rw [hne, hgrid.resolve_left he]
    simp only [Bool.false_eq_true, if_false]
    unfold depthSearch
    rw [PyM.bind_of_ok (PyM.modify_apply _ _)]
    have hterr : ({ w.terrain with depth := 1 } : Terrain ℝ) = exTerrainOf e len := by rw [wt]; rfl
    rw [hterr]
    rw [PyM.bind_of_ok (meanVelocityM_forward (v := 1) (x := 3) (w := { w with terrain := exTerrainOf e len })
      (exVel e len _ (by dsimp only; rw [ws]) (by dsimp only; rw [ws])))]
    rw [PyM.bind_of_ok (PyM.modify_apply _ _), PyM.bind_of_ok (PyM.modify_apply _ _), PyM.bind_of_ok (PyM.get_apply _)]
    split
    · exact ⟨_, rfl, rfl, wi, wf, wl, 3, by dsimp only; rw [ws]⟩
    · exact ⟨_, rfl, rfl, wi, wf, wl, 3, by dsimp only; rw [ws]⟩

theorem exSimulate (rate : Json ℝ) (e pos len : ℝ) (m : CrystModel ℝ) (fluxes : List (Flux ℝ)) (log : Log (Cell ℝ))
    (grid : List ℝ) (hgrid : e = 0 ∨ grid = [1]) (fuel : Nat) :
    ∃ w, ExStart e pos len log w ∧
      simulateOn grid fuel (exPrepared rate e pos len (exModelsOf m fluxes) log).integrator
        (exPrepared rate e pos len (exModelsOf m fluxes) log).world = runLoop (exG (exModelsOf m fluxes)) fuel w := by
  obtain ⟨w, h1, h2⟩ := exSearch e pos len log _ (exStart_new rate e pos len (exModelsOf m fluxes) log) grid hgrid
  refine ⟨w, h2, ?_⟩
  unfold simulateOn
  have : (exPrepared rate e pos len (exModelsOf m fluxes) log).integrator.models.lava = exLava 1 .er .ryerson := rfl
  rw [this, h1]
  rfl

/-- The run with rain: one accepted step, whose row holds all the columns. -/
theorem exRainRun (rate : Json ℝ) (e pos len : ℝ) (log : Log (Cell ℝ)) (hlen : len ≤ pos + 1) (grid : List ℝ)
    (hgrid : e = 0 ∨ grid = [1]) :
    ∃ w', simulateOn grid 1 (exPrepared rate e pos len (exModelsOf (.basic 0 1 0 1000) [.rain (1 / 100) 1 1]) log).integrator
        (exPrepared rate e pos len (exModelsOf (.basic 0 1 0 1000) [.rain (1 / 100) 1 1]) log).world = some (.ok (), w') ∧
      ∃ es : List (String × Cell ℝ), (∀ e ∈ es, e.1 ≠ "position") ∧
        es.map Prod.fst = (["flowgofluxheatlossrain"] ++ ["heat_budget"]) ++ stepColumns ∧
        w'.log = log.addAll (.num pos) es := by
  obtain ⟨w, h0, hs⟩ := exSimulate rate e pos len (.basic 0 1 0 1000) [.rain (1 / 100) 1 1] log grid hgrid 1
  obtain ⟨w', ha, hf⟩ := exStep e pos len log hlen w h0
  refine ⟨w', ?_, ?_⟩
  · rw [hs]
    exact runLoop_one _ _ _ ha.1 ha.2.1 hf
  · obtain ⟨es, h1, h2, h3⟩ := accepted_log ha
    refine ⟨es, h2, h1, ?_⟩
    obtain ⟨_, _, _, wl, x0, ws⟩ := h0
    rw [h3, wl, ws]

/-- The heat budget of an empty list of fluxes. -/
theorem empty_budget (m : Models ℝ) (width depth : ℝ) (w : World ℝ) (hm : m.fluxes = []) :
    heatBudget m width depth w = (.ok 0, (logNum "heat_budget" 0 w).2) := by
  have z : (0.0 : ℝ) = 0 := by norm_num
  unfold heatBudget
  rw [hm, z]
  rfl

/-- The run without any flux: its first step is given up, and leaves a row with the heat budget only. -/
theorem exDryRun (rate : Json ℝ) (e pos len : ℝ) (log : Log (Cell ℝ)) (grid : List ℝ) (hgrid : e = 0 ∨ grid = [1]) :
    ∃ w', simulateOn grid 1 (exPrepared rate e pos len (exModelsOf (.basic 0 1 0 1000) []) log).integrator
        (exPrepared rate e pos len (exModelsOf (.basic 0 1 0 1000) []) log).world = some (.ok (), w') ∧
      w'.log = log.addAll (.num pos) [("heat_budget", .num 0)] := by
  obtain ⟨w, h0, hs⟩ := exSimulate rate e pos len (.basic 0 1 0 1000) [] log grid hgrid 1
  generalize hg : exG (exModelsOf (.basic 0 1 0 1000) []) = g at hs
  obtain ⟨wt, wi, wf, wl, x0, ws⟩ := h0
  have gl : g.models.lava = exLava 1 .er .ryerson := by rw [← hg]; rfl
  have gf : g.models.fluxes = [] := by rw [← hg]; rfl
  have gc : g.models.cryst = .basic 0 1 0 1000 := by rw [← hg]; rfl
  have gdx : g.dx = 1 := by rw [← hg]; rfl
  have gm : g.massConservation = false := by rw [← hg]; rfl
  have hE : w.stepEffusion 1 = 1 := by norm_num [World.stepEffusion, wt, wi, exTerrainOf]
  have z : (0.0 : ℝ) = 0 := by norm_num
  have hheat : heatBudget g.models 1 w.terrain.depth
      { w with st := { w.st with strain := 3 }, effusionRate := w.stepEffusion 1 } = (.ok 0,
      { ({ w with st := { w.st with strain := 3 }, effusionRate := w.stepEffusion 1 } : World ℝ) with
        log := log.addAll (.num pos) [("heat_budget", .num 0)] }) := by
    rw [empty_budget _ _ _ _ gf, ← wl]
    have hp : pos = w.st.pos := by rw [ws]
    rw [hp]
    rfl
  have hstep := singleStep_noGrowth g w 1 3 1 (Real.pi / 2) 0 (1 / 1000) 0 _
    (by rw [gl, wt]; exact exVel e len _ (by rw [ws]) (by rw [ws]))
    (by rw [Bool.eq_false_iff]; simp only [ne_eq, leB_real]; norm_num)
    (by rw [gm, gl]; exact exWidth e len w wt wi)
    (by rw [wt]; exact exTerrainOf_slope _ _ _) hheat
    (by
      rw [gc]
      show PyNum.div (1 : ℝ) (1000 - 0) = _
      rw [div_of_ne (by norm_num)]; norm_num)
    (by
      rw [hE, gl, exLava_density]
      show PyNum.div _ (1 * 1 * 1 * (1 / 1000)) = _
      rw [div_of_ne (by norm_num)]; norm_num)
    (by rw [leB_real, ws]; norm_num)
  rw [runLoop_one _ _ _ wf hstep rfl] at hs
  exact ⟨_, hs, rfl⟩

end PyFlowGo
