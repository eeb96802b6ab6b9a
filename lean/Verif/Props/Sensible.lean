import Verif.Proofs.TotalSearch
import Verif.Props.SupplyConfig
import Verif.Props.RunLog
/-
  C117: a physically sensible configuration never raises.
-/
set_option linter.unusedSectionVars false
namespace PyFlowGo
open Spec

variable {g : Integrator ℝ} {x0 : ℝ}

theorem grid_pos : ∀ d ∈ (depthGrid : List ℝ), 0 < d := by
  intro d hd
  unfold depthGrid at hd
  obtain ⟨i, _, rfl⟩ := List.mem_map.mp hd
  show (0 : ℝ) < 0.01 + ((i : ℤ) : ℝ) * 0.001
  have : (0 : ℝ) ≤ ((i : ℤ) : ℝ) := by exact_mod_cast Int.natCast_nonneg i
  norm_num
  positivity

theorem grid_nonempty : (depthGrid : List ℝ) ≠ [] := by
  intro h
  have := congrArg List.length h
  rw [depthGrid_length] at this
  cases this

/-- **C117**, one step: with sensible parameters `single_step` raises nothing from a state that can flow, and what it leaves is a flow that
    has stopped, or a state that can flow again, or lava packed exactly to the limit. -/
theorem C117_single_step (w : World ℝ) (hg : Sensible g w.terrain x0) (hx : x0 ≤ w.st.pos) (hv : AtVent g w)
    (hE : w.iteration ≠ 0 → 0 < w.effusionRate) (hm : g.massConservation = true → ∃ fr, w.fluxRate = some fr) (hf : w.finished = false) :
    ∃ w', singleStep g w = (.ok (), w') ∧ w'.terrain = w.terrain ∧
      (w'.finished = true ∨ AtPacking w'.st g.models.lava.rel ∨
        (AtVent g w' ∧ x0 ≤ w'.st.pos ∧ 0 < w'.effusionRate ∧ w'.fluxRate = w.fluxRate ∧ w'.iteration = w.iteration + 1)) := by
  have hs : Fit g w.terrain x0 w.st := ⟨hx, hv.crystals, hv.hot, hv.room, hv.off, hv.ground⟩
  have hr : Ready g w := ⟨hv.depth, hE, hm⟩
  obtain ⟨w', h⟩ := step_total hg hs hr
  obtain ⟨ht, h1⟩ := step_fit hg hs hr hf h
  refine ⟨w', h, ht, ?_⟩
  rcases h1 with h1 | h1 | ⟨h1, h2⟩
  · exact Or.inl h1
  · exact Or.inr (Or.inl h1.1)
  · by_cases hfin : w'.finished = true
    · exact Or.inl hfin
    · right; right
      rcases acceptedStep_cases h with ⟨_, hc⟩ | hit
      · exact absurd hc hfin
      · exact ⟨⟨h1.crystals, h1.hot, h1.room, h1.off, h2.depth, h1.ground⟩, h1.downstream, h2.rate (by omega),
          (accepted_advance ⟨hf, h, hit⟩).2.2.2.1, hit⟩

/-- **C117**, the loop of a run. It ends within the bound of C05; it raises only in a state whose crystals are packed exactly to the limit. -/
theorem C117_loop (w : World ℝ) (hg : Sensible g w.terrain x0) (hx : x0 ≤ w.st.pos) (hv : AtVent g w)
    (hE : w.iteration ≠ 0 → 0 < w.effusionRate) (hm : g.massConservation = true → ∃ fr, w.fluxRate = some fr)
    (n : Nat) (hn : 1 ≤ n) (hL : (w.terrain.maxLength - w.st.pos) / g.dx ≤ n) :
    ∃ r w', runLoop g n w = some (r, w') ∧
      (r = .ok () ∧ w'.finished = true ∨ (∃ e, r = .error e) ∧ AtPacking w'.st g.models.lava.rel) := by
  obtain ⟨r, w', h⟩ := C05_terminates g hg.step w n hn hL
  exact ⟨r, w', h, (loop_total n w hg ⟨hx, hv.crystals, hv.hot, hv.room, hv.off, hv.ground⟩ ⟨hv.depth, hE, hm⟩ r w' h).2⟩

/-- **C117**, the search for the depth that gives the configured effusion rate raises nothing, and leaves a state that can flow in a channel
    of positive depth. -/
theorem C117_depth_search (w : World ℝ) (hg : Sensible g w.terrain x0) (hx : x0 ≤ w.st.pos) (hv : AtVent g w) :
    ∃ w', initEffusionRate g.models.lava w = (.ok (), w') ∧ AtVent g w' ∧ w'.log = w.log ∧ w'.iteration = w.iteration ∧
      w'.st = { w.st with strain := w'.st.strain } ∧ w'.terrain = { w.terrain with depth := w'.terrain.depth } ∧
      (w.terrain.effusionRateInit ≠ 0 → ∃ fr, w'.fluxRate = some fr) := by
  have hs : Fit g w.terrain x0 w.st := ⟨hx, hv.crystals, hv.hot, hv.room, hv.off, hv.ground⟩
  unfold initEffusionRate initEffusionRateOn
  rw [PyM.bind_of_ok (PyM.get_apply _)]
  by_cases hz : eqB w.terrain.effusionRateInit 0.0 = true
  · rw [if_pos hz]
    rw [eqB_real] at hz
    exact ⟨w, rfl, hv, rfl, rfl, rfl, rfl, fun h => absurd (by rw [hz]; norm_num) h⟩
  · rw [if_neg hz]
    obtain ⟨w', h1, h2, h3⟩ := search_total _ grid_pos w hg hs hv.depth
    obtain ⟨y, hy⟩ := h2.state
    obtain ⟨d, hd, ht⟩ := h2.terrain
    have hs' : Fit g w'.terrain x0 w'.st := by rw [ht, hy]; exact (hs.withDepth d).withStrain y
    refine ⟨w', h1, ⟨hs'.crystals, hs'.hot, hs'.room, hs'.off, by rw [ht]; exact hd, hs'.ground⟩, h2.log, h2.iteration, ?_, ?_,
      fun _ => h3 grid_nonempty⟩
    · rw [hy]
    · rw [ht]

/-- The whole simulation. -/
theorem simulate_total (w : World ℝ) (hg : Sensible g w.terrain x0) (hx : x0 ≤ w.st.pos) (hv : AtVent g w) (hit : w.iteration = 0)
    (hm : g.massConservation = true → w.terrain.effusionRateInit ≠ 0)
    (n : Nat) (hn : 1 ≤ n) (hL : (w.terrain.maxLength - w.st.pos) / g.dx ≤ n) :
    ∃ r w', simulateOn depthGrid n g w = some (r, w') ∧
      (r = .ok () ∧ w'.finished = true ∨ (∃ e, r = .error e) ∧ AtPacking w'.st g.models.lava.rel) := by
  obtain ⟨w1, h1, hv1, _, hit1, hst1, ht1, hfl⟩ := C117_depth_search w hg hx hv
  unfold simulateOn
  unfold initEffusionRate at h1
  rw [h1]
  dsimp only
  refine C117_loop w1 (x0 := x0) (by rw [ht1]; exact hg.withDepth _) (by rw [hst1]; exact hx) hv1 (fun h => absurd (hit1.trans hit) h)
    (fun h => hfl (hm h)) n hn ?_
  rw [hst1, ht1]
  exact hL

/-- **C117**, the whole run. A configuration that can be loaded, whose parameters are sensible and whose lava can flow at its vent, runs to the
    end: no exception, and a result file as soon as the flow has made a step (the table has a line for every position of the log) -- unless the
    flow meets a state whose crystals are packed exactly to the limit of the relative-viscosity law. -/
theorem C117_run_completes (env : Env ℝ) (jsonFile folder : String) (p : Proc ℝ) (data : Json ℝ) (pr : Prepared ℝ)
    (hdata : lookup p.json (env.canon jsonFile) = some data) (hprep : prepare env data [] = .ok pr)
    (hg : Sensible pr.integrator pr.world.terrain pr.world.st.pos) (hv : AtVent pr.integrator pr.world)
    (hm : pr.integrator.massConservation = true → pr.world.terrain.effusionRateInit ≠ 0)
    (n : Nat) (hn : 1 ≤ n) (hL : (pr.world.terrain.maxLength - pr.world.st.pos) / pr.integrator.dx ≤ n) :
    (∃ p', run n env jsonFile folder (newRunner p) = some (.ok (), p') ∧ p'.json = p.json ∧
      (p'.log = [] → p'.results = p.results) ∧
      (p'.log ≠ [] → ∃ t, p'.results =
          (env.canon (resultFileName folder (pr.cfg.lavaName.show env) (pr.cfg.rate.show env)), t) :: p.results ∧
        t.rows.length = p'.log.length)) ∨
    (∃ e p' w, run n env jsonFile folder (newRunner p) = some (.error e, p') ∧ p'.results = p.results ∧
      simulateOn depthGrid n pr.integrator pr.world = some (.error e, w) ∧ AtPacking w.st pr.integrator.models.lava.rel) := by
  obtain ⟨_, _, _, _, hit, hfin, _⟩ := prepared_facts hprep
  obtain ⟨r, w', hsim, hcase⟩ := simulate_total pr.world hg le_rfl hv hit hm n hn hL
  rcases hcase with ⟨rfl, _⟩ | ⟨⟨e, rfl⟩, hpk⟩
  · left
    obtain ⟨p', h1, h2, h3, h4, h5⟩ := C04_run_writes (fun c => beq_self_eq_true c) depthGrid n env jsonFile folder p data pr w' hdata hprep hsim
    refine ⟨p', h1, h3, fun h => h4 (by rw [← h2]; exact h), fun h => ?_⟩
    obtain ⟨t, ht, hlen, _⟩ := h5 (by rw [← h2]; exact h)
    exact ⟨t, ht, by rw [hlen, h2]⟩
  · right
    refine ⟨e, { newRunner p with log := w'.log }, w', ?_, rfl, hsim, hpk⟩
    unfold run
    rw [runOn_finish depthGrid n env jsonFile folder (newRunner p) data hdata pr hprep, hsim]
    rfl

/-- **C117**. With the Einstein-Roscoe law or one of the Costa laws there is no such state: the run completes. -/
theorem C117_never_raises (env : Env ℝ) (jsonFile folder : String) (p : Proc ℝ) (data : Json ℝ) (pr : Prepared ℝ)
    (hdata : lookup p.json (env.canon jsonFile) = some data) (hprep : prepare env data [] = .ok pr)
    (hg : Sensible pr.integrator pr.world.terrain pr.world.st.pos) (hv : AtVent pr.integrator pr.world)
    (hm : pr.integrator.massConservation = true → pr.world.terrain.effusionRateInit ≠ 0)
    (hrel : pr.integrator.models.lava.rel = .er ∨ (∃ q, pr.integrator.models.lava.rel = .costa1 q) ∨ ∃ q, pr.integrator.models.lava.rel = .costa2 q)
    (n : Nat) (hn : 1 ≤ n) (hL : (pr.world.terrain.maxLength - pr.world.st.pos) / pr.integrator.dx ≤ n) :
    ∃ p', run n env jsonFile folder (newRunner p) = some (.ok (), p') := by
  rcases C117_run_completes env jsonFile folder p data pr hdata hprep hg hv hm n hn hL with ⟨p', h, _⟩ | ⟨e, p', w, _, _, _, hpk⟩
  · exact ⟨p', h⟩
  · rcases hrel with h | ⟨q, h⟩ | ⟨q, h⟩ <;> rw [h] at hpk <;> exact hpk.elim

/-- **C117**, the exception is real: from a state packed exactly to the limit the next step raises and changes nothing. -/
theorem C117_packed_raises (w : World ℝ) (hg : Sensible g w.terrain x0) (hx : x0 ≤ w.st.pos) (h0 : 0 ≤ w.st.crystal)
    (hot : g.models.cryst.solidTemperature < w.st.temp) (room : g.models.lava.notCompatible w.st = .ok false)
    (hpk : AtPacking w.st g.models.lava.rel) : ∃ e, singleStep g w = (.error e, w) :=
  packed_step (packed_viscosity hg w.st hx h0 hot room hpk)

/-- **C117**, which vesicle, crystallisation and crust models are sensible. -/
theorem C117_sensible_vesicles (x0 : ℝ) :
    (∀ v, 0 ≤ v → v < 1 → VesiclesWithin x0 (.constant v)) ∧
    (∀ d v1 v2, 0 ≤ v1 → v1 < 1 → 0 ≤ v2 → v2 < 1 → VesiclesWithin x0 (.bimodal d v1 v2)) ∧
    (∀ v c, 0 ≤ x0 → 0 ≤ c → v < 1 → VesiclesWithin x0 (.variable v c)) := by
  refine ⟨fun v h0 h1 s _ => ⟨h0, h1⟩, fun d v1 v2 a b c e s _ => ?_, fun v c hx hc hv s hs => ?_⟩
  · unfold VesicleModel.fraction
    dsimp only
    split <;> constructor <;> assumption
  · unfold VesicleModel.fraction
    dsimp only
    split
    · norm_num
    · rename_i h
      rw [leB_real] at h
      norm_num at h
      refine ⟨by linarith, ?_⟩
      have := mul_nonneg hc (hx.trans hs)
      linarith

/-- **C117**, crystallisation: every law with a positive rate. -/
theorem C117_sensible_rates (s : FlowState ℝ) :
    (∀ f grown Ts Te, 0 < grown → Ts < Te → ∃ r, 0 < r ∧ (CrystModel.basic f grown Ts Te).rate s = .ok r) ∧
    (∀ f d r1 r2 Ts, 0 < r1 → 0 < r2 → ∃ r, 0 < r ∧ (CrystModel.bimodal f d r1 r2 Ts).rate s = .ok r) ∧
    (∀ f Tc r1 r2 Ts, 0 < r1 → 0 < r2 → ∃ r, 0 < r ∧ (CrystModel.bimodalFTemp f Tc r1 r2 Ts).rate s = .ok r) := by
  refine ⟨fun f grown Ts Te h1 h2 => ⟨grown / (Te - Ts), div_pos h1 (by linarith), div_of_ne (by linarith)⟩, fun f d r1 r2 Ts h1 h2 => ?_,
    fun f Tc r1 r2 Ts h1 h2 => ?_⟩
  · unfold CrystModel.rate
    dsimp only
    split
    · exact ⟨_, h1, rfl⟩
    · exact ⟨_, h2, rfl⟩
  · unfold CrystModel.rate
    dsimp only
    split
    · exact ⟨_, h1, rfl⟩
    · exact ⟨_, h2, rfl⟩

end PyFlowGo
