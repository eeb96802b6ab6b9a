import Verif.Model.Flux
/-
  pyflowgo/flowgo_integrator.py
-/
namespace PyFlowGo
variable {α : Type} [Add α] [Sub α] [Mul α] [Neg α] [OfScientific α] [PyNum α]

/-- The fixed fields of `FlowGoIntegrator` (flowgo_integrator.py:29-45). -/
structure Integrator (α : Type) where
  dx : α
  models : Models α
  massConservation : Bool
  deriving Repr

/-- The local variables of `single_step` that later lines use. -/
structure StepData (α : Type) where
  v : α
  depth : α
  width : α
  slope : α
  heat : α
  rate : α
  dtempDx : α
  dtempDt : α
  dphiDx : α
  newPhi : α
  newTemp : α
  deriving Repr

/-- flowgo_integrator.py:97-100: the channel width from mass or volume conservation. `self.flux_rate`
    does not exist before `init_effusion_rate` assigned it: AttributeError. -/
def channelWidth (mass : Bool) (effusionRate : α) (fluxRate : Option α) (v depth density : α) :
    Except Err α :=
  if mass then
    match fluxRate with
    | none => .error .attributeError
    | some fr => do
      let a ← PyNum.div fr (v * depth)
      PyNum.div a density
  else PyNum.div effusionRate (v * depth)

/-- flowgo_integrator.py:86-88: on the first iteration the effusion rate is computed from the
    configured width. -/
def setEffusionRate (v : α) : PyM (World α) Unit :=
  PyM.modify fun w =>
    if w.iteration == 0 then { w with effusionRate := v * w.terrain.width * w.terrain.depth } else w

/-- flowgo_integrator.py:83-146: everything between the velocity test and the log. -/
def stepCompute (g : Integrator α) (v : α) : PyM (World α) (StepData α) := do
  setEffusionRate v
  let w ← PyM.get
  let depth := w.terrain.depth
  let density := g.models.lava.density w.st
  let width ← PyM.lift (channelWidth g.massConservation w.effusionRate w.fluxRate v depth density)
  let slope ← PyM.lift (w.terrain.slope w.st.pos)
  let heat ← heatBudget g.models width depth
  let w ← PyM.get
  let rate ← PyM.lift (g.models.cryst.rate w.st)
  let dtempDx ← PyM.lift (PyNum.div (-heat)
    (w.effusionRate * density * g.models.lava.latentHeat * rate))
  let dphiDx := dtempDx * (-rate)
  return { v := v, depth := depth, width := width, slope := slope, heat := heat, rate := rate,
           dtempDx := dtempDx, dtempDt := (-dtempDx) * v * 60.0, dphiDx := dphiDx,
           newPhi := w.st.crystal + dphiDx * g.dx,
           newTemp := w.st.temp + dtempDx * g.dx }

/-- flowgo_integrator.py:149-181: the log entries of an accepted step. Their values are evaluated one
    after the other; line 166 calls `compute_mean_velocity` through the cover model. -/
def stepLog (g : Integrator α) (d : StepData α) : PyM (World α) Unit := do
  let m := g.models
  let w ← PyM.get
  logNum "channel_width" d.width
  logNum "crystal_fraction" w.st.crystal
  logNum "core_temperature" w.st.temp
  logNum "strain_rate" w.st.strain
  logNum "vesicle_fraction" (m.lava.vesicleFraction w.st)
  let visc ← PyM.lift (m.lava.bulkViscosity w.st)
  logNum "viscosity" visc
  logNum "density" (m.lava.density w.st)
  logNum "mean_velocity" d.v
  let tc ← crustTemperature m
  logNum "crust_temperature" tc
  let f ← effectiveCover m
  logNum "effective_cover_fraction" f
  logNum "dphi_dx" d.dphiDx
  logNum "dtemp_dx" d.dtempDx
  logNum "dphi_dtemp" d.rate
  logNum "dtemp_dt" d.dtempDt
  logNum "slope" d.slope
  let w ← PyM.get
  logCell "effusion_rate" (.text w.effusionRate)
  logNum "channel_depth" d.depth
  let tho0 ← PyM.lift (m.lava.yieldStrength w.st)
  logNum "tho_0" tho0
  let thob ← PyM.lift (m.lava.basalStress w.terrain w.st)
  logNum "tho_b" thob

/-- flowgo_integrator.py:184-192: update of the state and of the iteration counter. -/
def stepUpdate (g : Integrator α) (d : StepData α) : PyM (World α) Unit := do
  PyM.modify fun w => { w with st := { w.st with
    crystal := d.newPhi, temp := d.newTemp, pos := w.st.pos + g.dx } }
  let dt ← PyM.lift (PyNum.div g.dx d.v)
  PyM.modify fun w => { w with st := { w.st with time := w.st.time + dt } }
  let strain ← PyM.lift (PyNum.div (3.0 * d.v) d.depth)
  PyM.modify fun w => { w with st := { w.st with strain := strain }, iteration := w.iteration + 1 }

omit [Add α] [Sub α] [Mul α] [Neg α] [OfScientific α] [PyNum α] in
/-- `self._has_finished = True`. -/
def setFinished : PyM (World α) Unit := PyM.modify fun w => { w with finished := true }

/-- flowgo_integrator.py:194-212: the stop tests after an accepted step. -/
def stepStop (g : Integrator α) (d : StepData α) : PyM (World α) Unit := do
  let w ← PyM.get
  if leB d.newTemp g.models.cryst.solidTemperature then setFinished
  else do
    let nc ← PyM.lift (g.models.lava.notCompatible w.st)
    if nc then setFinished
    else do
      let yc ← PyM.lift (g.models.lava.yieldNotCompatible w.terrain w.st)
      if yc then setFinished
      else if leB w.terrain.maxLength w.st.pos then setFinished
      else pure ()

/-- flowgo_integrator.py:68-212 `single_step`. -/
def singleStep (g : Integrator α) : PyM (World α) Unit := do
  let v ← meanVelocityM g.models.lava
  if leB v 0.0 then setFinished
  else do
    let d ← stepCompute g v
    let w ← PyM.get
    if leB d.newPhi w.st.crystal then setFinished
    else do
      stepLog g d
      stepUpdate g d
      stepStop g d

/-- `while not integrator.has_finished(): integrator.single_step(state)` (run_flowgo.py:105-106), for
    at most `n` iterations; `none` means "still running after `n` iterations". -/
def runLoop (g : Integrator α) : Nat → World α → Option (Except Err Unit × World α)
  | 0, w => if w.finished then some (.ok (), w) else none
  | n + 1, w =>
    if w.finished then some (.ok (), w)
    else
      match singleStep g w with
      | (.ok _, w') => runLoop g n w'
      | (.error e, w') => some (.error e, w')

/-- The loop of flowgo_integrator.py:52-65 over a list of candidate depths. -/
def depthSearch (l : Lava α) : List α → PyM (World α) Unit
  | [] => pure ()
  | d :: rest => do
    PyM.modify fun w => { w with terrain := { w.terrain with depth := d } }
    let v ← meanVelocityM l
    PyM.modify fun w => { w with effusionRate := v * w.terrain.width * d }
    PyM.modify fun w => { w with fluxRate := some (w.effusionRate * l.density w.st) }
    let w ← PyM.get
    if leB w.terrain.effusionRateInit w.effusionRate then pure ()
    else depthSearch l rest

/-- `np.arange(0.01, 50.0, 0.001)`, flowgo_integrator.py:52. -/
def depthGrid : List α :=
  (List.range 49990).map fun (i : Nat) => 0.01 + PyNum.ofInt (i : Int) * 0.001

/-- flowgo_integrator.py:47-65 `init_effusion_rate`, over an arbitrary grid. -/
def initEffusionRateOn (grid : List α) (l : Lava α) : PyM (World α) Unit := do
  let w ← PyM.get
  if eqB w.terrain.effusionRateInit 0.0 then pure ()
  else depthSearch l grid

/-- flowgo_integrator.py:47-65 `init_effusion_rate`. -/
def initEffusionRate (l : Lava α) : PyM (World α) Unit := initEffusionRateOn depthGrid l

/-- flowgo_integrator.py:228-238 `initialize_state` and flowgo_state.py:81-86, given the position and
    time read from the configuration. The integrator's `_effusion_rate_init`, `_depth`, `_width`
    (lines 219-224) are the same entries as the terrain's. -/
def initialState (m : Models α) (t : Terrain α) (pos time : α) : Except Err (FlowState α) := do
  let t0 := m.lava.eruptionT
  let phi0 ← m.cryst.crystalFraction t0
  let a ← PyNum.div (3.0 * t.effusionRateInit) (PyNum.npow t.depth 2)
  let strain ← PyNum.div a t.width
  return { crystal := phi0, temp := t0, pos := pos, time := time, strain := strain }

/-- flowgo_integrator.py:29-45: a new integrator together with a state, the terrain and the log. -/
def newWorld (t : Terrain α) (s : FlowState α) (log : Log (Cell α)) : World α :=
  { st := s, terrain := t, log := log, effusionRate := 0.0, fluxRate := none, iteration := 0,
    finished := false }

end PyFlowGo
