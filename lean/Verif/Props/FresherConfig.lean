import Verif.Props.ResumeConfig
import Verif.Props.StrongerSensible
import Verif.Props.StrongerSupply
/-
  C128 for two configuration files.
-/
set_option linter.unusedSectionVars false
namespace PyFlowGo
open Spec

/-- A loop does not read the eruption temperature of the lava, nor anything of the crystallisation model but its rate and the solidus. -/
theorem erupted_mirror {g : Integrator ℝ} {c : CrystModel ℝ} (hc : SameGrowth g.models.cryst c) (T : ℝ) : Mirror (g.erupted T c) g id where
  dx := rfl
  mass := rfl
  air := rfl
  fluxes := rfl
  latent := rfl
  solid := hc.solid.symm
  vel := by
    intro w
    unfold meanVelocityM
    have h : (g.erupted T c).models.lava.meanVelocity w.terrain w.st = g.models.lava.meanVelocity w.terrain w.st := by
      unfold Lava.meanVelocity
      simp only [show ∀ t0 tb n x, velocityLoop (g.erupted T c).models.lava w.st w.terrain.depth t0 tb n x = velocityLoop g.models.lava w.st w.terrain.depth t0 tb n x from
        fun t0 tb n x => loop_erupted g.models.lava T w.st w.terrain.depth t0 tb n x]
      rfl
    rw [h]
    rfl
  crust _ := rfl
  cover _ _ := rfl
  molten _ := rfl
  vesicle _ := rfl
  density _ := rfl
  bulk _ := rfl
  yield_ _ := rfl
  basal _ := rfl
  compat _ := rfl
  rate w := (hc.rate _).symm
  slope _ := rfl
  depth _ := rfl
  rates _ := rfl
  flux _ _ := rfl
  temp _ := rfl
  crystal _ := rfl
  strain _ := rfl
  fin _ := rfl
  length _ := rfl
  logs _ _ _ _ := rfl
  setTime _ _ := rfl
  setStrain _ _ := rfl
  finish _ := rfl
  width _ := rfl
  iter _ := rfl
  setRate _ _ := rfl
  setState _ _ _ := rfl

/-- The same channel drives the same lava as hard. -/
theorem drives_self (l : Lava ℝ) (T : Terrain ℝ) (R : ℝ → ℝ → ℝ → Prop) (hd : 0 < T.depth) : DrivesHarder l T T R :=
  ⟨hd, le_rfl, fun _ b _ h _ => ⟨b, h, le_rfl⟩⟩

/-- With the effusion rate left open the simulation begins with the loop. -/
theorem open_rate (grid : List ℝ) (n : Nat) (g : Integrator ℝ) (w : World ℝ) (h : w.terrain.effusionRateInit = 0) : simulateOn grid n g w = runLoop g n w := by
  unfold simulateOn initEffusionRateOn
  rw [PyM.bind_of_ok (PyM.get_apply _), if_pos (by rw [h]; simp only [beq_iff_eq, eqB_real]; norm_num)]
  rfl

/-- What a run prepares from the second configuration, if the vent is the same but for the lava. -/
theorem vent_same_channel {env : Env ℝ} {d d' : Json ℝ} (h : SameButVent d d') {c : Choice} (hc : Selects d c) {pr : Prepared ℝ} (hprep : prepare env d [] = .ok pr) {T φ : ℝ}
    (hv : VentAt env d d' pr.world.st.pos T φ pr.world.terrain.width pr.world.terrain.depth) (hrate : RateIs env d 0)
    (hbasic : (c.melt ≠ "basic" ∧ c.yld ≠ "basic") ∨ NumberAt env d "eruption_condition" "eruption_temperature" T)
    (hW : pr.world.terrain.width ≠ 0) (hD : pr.world.terrain.depth ≠ 0) :
    ∃ pr' T0 cr, prepare env d' [] = .ok pr' ∧ pr'.integrator = pr.integrator.erupted T0 cr ∧ SameGrowth pr.integrator.models.cryst cr ∧
      pr'.world.terrain = pr.world.terrain ∧ pr.world.terrain.effusionRateInit = 0 ∧
      pr'.world.st.pos = pr.world.st.pos ∧ pr'.world.st.temp = T ∧ pr'.world.st.crystal = φ := by
  obtain ⟨er, _⟩ := prepared_facts hprep
  obtain ⟨pr', hp', hb⟩ := vent_prepare h hc hbasic hv hW hD hprep
  have h0 : pr.world.terrain.effusionRateInit = 0 := rate_unique er hrate
  obtain ⟨T0, cr, hmod, hgrow⟩ := hb.models
  refine ⟨pr', T0, cr, hp', ?_, hgrow, ?_, h0, hb.position, hb.temperature, hb.crystals⟩
  · have e1 := hb.step
    have e2 := hb.mass
    generalize pr'.integrator = g' at *
    cases g'
    dsimp only at e1 e2 hmod
    subst e1 e2 hmod
    rfl
  · rw [hb.terrain]
    generalize pr.world.terrain = t at h0
    cases t
    dsimp only at h0
    subst h0
    rfl

/-- The same lava at the same vent, whatever the strain rate and the time. -/
theorem atVent_same {g : Integrator ℝ} {w w' : World ℝ} (h : AtVent g w) (ht : w'.terrain = w.terrain) (q1 : w'.st.pos = w.st.pos) (q2 : w'.st.temp = w.st.temp)
    (q3 : w'.st.crystal = w.st.crystal) : AtVent g w' := by
  have fb : Fit g w.terrain w.st.pos w.st := ⟨le_rfl, h.crystals, h.hot, h.room, h.off, h.ground⟩
  have fb' := fit_same fb q1 q2 q3
  exact ⟨fb'.crystals, fb'.hot, fb'.room, fb'.off, by rw [ht]; exact h.depth, by rw [ht]; exact fb'.ground⟩

theorem vent_yield_same {l : Lava ℝ} {t : Terrain ℝ} {s s' : FlowState ℝ} (q1 : s'.pos = s.pos) (q2 : s'.temp = s.temp) (q3 : s'.crystal = s.crystal) :
    l.yieldNotCompatible t s' = l.yieldNotCompatible t s := by
  unfold Lava.yieldNotCompatible Lava.basalStress Lava.yieldStrength
  have e1 : l.yld.strength s' = l.yld.strength s := by
    cases l.yld <;> unfold YieldModel.strength <;> dsimp only <;> simp only [q2, q3, ves_same _ q1]
  rw [e1, q1, density_pos_only _ s' s q1]

/-- **C128** on configuration files. Two configurations that differ only in the lava that leaves the vent: the second erupts at a temperature `T` with a crystal fraction `φ`, not
    hotter than the first and with at least the crystals that the first lava has when it has cooled to `T` (`k` crystals per kelvin). Channel and place are the same and the effusion rate
    is left open in both; the first configuration is sensible and has the models of C121. If the eruption temperatures differ, the melt-viscosity and yield-strength models are not the
    "basic" ones (which read it). The second lava, too, can flow at the vent and moves there; the step is small for the first run. Both runs end normally. Then wherever both logs show a number the first
    is not colder, not more crystallised and not slower; and if it always loses heat it goes at least as far. -/
theorem C128_run (grid grid' : List ℝ) (n n' : Nat) (env : Env ℝ) (jsonFile jsonFile' folder folder' : String) (p p' q q' : Proc ℝ) (d d' : Json ℝ)
    (hd : lookup p.json (env.canon jsonFile) = some d) (hd' : lookup p'.json (env.canon jsonFile') = some d') (c : Choice) (hc : Selects d c)
    (pr : Prepared ℝ) (hprep : prepare env d [] = .ok pr) (h : SameButVent d d') (T φ : ℝ)
    (hv : VentAt env d d' pr.world.st.pos T φ pr.world.terrain.width pr.world.terrain.depth) (hrate : RateIs env d 0)
    (hbasic : (c.melt ≠ "basic" ∧ c.yld ≠ "basic") ∨ NumberAt env d "eruption_condition" "eruption_temperature" T)
    (hmass : ∀ v, EntryAt d "terrain_conditions" "mass_conservation" v → v = .bool false)
    (hg : Sensible pr.integrator pr.world.terrain pr.world.st.pos) (k : ℝ) (he : Everyday pr.integrator pr.world.st.pos k)
    (hva : AtVent pr.integrator pr.world) (hvb : AtVent pr.integrator { pr.world with st := { pr.world.st with temp := T, crystal := φ } })
    (hT : T ≤ pr.world.st.temp) (hφ : pr.world.st.crystal + k * (pr.world.st.temp - T) ≤ φ)
    (hvent : pr.integrator.models.lava.yieldNotCompatible pr.world.terrain { pr.world.st with temp := T, crystal := φ } = .ok false)
    (hrun : runOn grid n env jsonFile folder (newRunner p) = some (.ok (), q))
    (hrun' : runOn grid' n' env jsonFile' folder' (newRunner p') = some (.ok (), q'))
    (hsmall : StepIsSmall pr.integrator pr.world.terrain.depth (pr.world.st.temp - pr.integrator.models.lava.buffer) k q.log) :
    (∀ x y y', BothShow q.log q'.log "core_temperature" x y y' → y' ≤ y) ∧
    (∀ x y y', BothShow q.log q'.log "crystal_fraction" x y y' → y ≤ y') ∧
    (∀ x y y', BothShow q.log q'.log "mean_velocity" x y y' → y' ≤ y) ∧
    ((∀ x y, loggedNum q.log x "heat_budget" = some y → 0 < y) → ∀ x, CompleteRow q'.log x → CompleteRow q.log x) := by
  obtain ⟨_, _, _, hlog, hit, hfin, _, _, _, inner, e3, e4⟩ := prepared_facts hprep
  have hmc : pr.integrator.massConservation = false := by
    rw [e4]
    cases hl : lookup inner "mass_conservation" with
    | none => rfl
    | some v =>
      have := hmass v (by obtain ⟨top, g1, g2⟩ := e3; exact ⟨top, inner, g1, g2, hl⟩)
      rw [this]; rfl
  obtain ⟨pr', T0, cr, hp', hgi, hgrow, ht, h0, q1, q2, q3⟩ := vent_same_channel h hc hprep hv hrate hbasic hg.width.ne' hva.depth.ne'
  obtain ⟨_, _, _, hlog', hit', hfin', _⟩ := prepared_facts hp'
  obtain ⟨a, hsa, hqa⟩ := run_log (p := newRunner p) hd hprep hrun
  obtain ⟨b, hsb, hqb⟩ := run_log (p := newRunner p') hd' hp' hrun'
  rw [open_rate _ _ _ _ h0] at hsa
  rw [open_rate _ _ _ _ (by rw [ht]; exact h0)] at hsb
  have hloop : runLoop pr.integrator n' pr'.world = some (.ok (), b) := by
    have := (erupted_mirror hgrow T0).loop n' pr'.world
    rw [← hgi, hsb] at this
    exact this
  have hvent' : pr.integrator.models.lava.yieldNotCompatible pr'.world.terrain pr'.world.st = .ok false := by
    rw [ht, ← hvent]
    exact vent_yield_same q1 q2 q3
  have hvb' : AtVent pr.integrator pr'.world := atVent_same hvb ht q1 q2 q3
  obtain ⟨c1, c2, c3, c4⟩ := C128_sensible pr.integrator pr.world.st.pos k n n' pr.world pr'.world a b hg (by rw [ht]; exact hg) he hva hvb' le_rfl
    ⟨q1, by rw [q2]; exact hT, by rw [q2, q3]; exact hφ⟩ hlog hlog' hit hit'
    (by rw [ht]; exact drives_self _ _ _ hva.depth) hvent' (fun hm => by rw [hmc] at hm; cases hm) hsa hloop (by rw [← hqa]; exact hsmall)
  rw [hqa, hqb]
  exact ⟨c1, c2, c3, fun hh => (c4 (by rw [ht]) hfin hh).2⟩

end PyFlowGo
