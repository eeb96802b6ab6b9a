import Verif.Model.Run
/-
  main_flowgo.py, the command-line entry point (lines 28-109).
-/
namespace PyFlowGo
variable {α : Type} [Add α] [Sub α] [Mul α] [Neg α] [OfScientific α] [PyNum α]

omit [Add α] [Sub α] [Mul α] [Neg α] in
/-- `value == True` for a JSON value, flowgo_integrator.py:97: true itself and the number 1. -/
def Json.eqTrue : Json α → Bool
  | .bool b => b
  | .int n => n == 1
  | .num x => eqB x 1.0
  | _ => false

omit [Add α] [Sub α] [Mul α] [Neg α] in
/-- main_flowgo.py:42-62. The value of `mass_conservation` is handed over as it stands (line 61) and compared with `True`
    by the integrator; the model makes the comparison here. -/
def readMainConfig (env : Env α) (data : Json α) : Except Err (RunConfig α) := do
  let rate ← data.get "effusion_rate_init"
  let lavaName ← requireTop data "lava_name"
  let slopeFile ← requireTop data "slope_file"
  let sz ← requireTop data "step_size"
  let stepSize ← sz.toFloat env
  let tc ← data.get "terrain_conditions"
  let b ← tc.has "mass_conservation"
  if b then do
    let v ← tc.get "mass_conservation"
    return { rate, lavaName, slopeFile, stepSize, massConservation := v.eqTrue }
  else return { rate, lavaName, slopeFile, stepSize, massConservation := false }

/-- main_flowgo.py:66-99: terrain, factory, integrator, state, in the order of `RunFlowgo.run`. -/
def prepareMain (env : Env α) (data : Json α) (log : Log (Cell α)) : Except Err (Prepared α) := do
  let cfg ← readMainConfig env data
  let t0 ← buildTerrain env data
  let t ← loadSlope env t0 cfg.slopeFile
  let models ← factory env data
  let pos ← getF env data "lava_state" "position"
  let time ← getF env data "lava_state" "time"
  let st ← initialState models t pos time
  return { cfg, integrator := { dx := cfg.stepSize, models, massConservation := cfg.massConservation },
           world := newWorld t st log }

omit [Add α] [Sub α] [Mul α] [Neg α] [OfScientific α] [PyNum α] in
/-- main_flowgo.py:106-107. -/
def mainFileName (lavaName rate : String) : String :=
  pathJoin (pathJoin "." "results_flowgo") ("results_main_flowgo_" ++ lavaName ++ "_" ++ rate ++ "m3s.csv")

/-- main_flowgo.py:28-109, run as a script: a new process, so the log is empty (`p` stands for the files on disk). -/
def mainScriptOn (grid : List α) (fuel : Nat) (env : Env α) (configFile : String) (p : Proc α) :
    Option (Except Err Unit × Proc α) :=
  match lookup p.json (env.canon configFile) with
  | none => some (.error .fileNotFound, { p with log := [] })
  | some data =>
    match prepareMain env data [] with
    | .error e => some (.error e, { p with log := [] })
    | .ok pr =>
      match simulateOn grid fuel pr.integrator pr.world with
      | none => none
      | some (.error e, w) => some (.error e, { p with log := w.log })
      | some (.ok _, w) =>
        match writeValues w.log with
        | .error e => some (.error e, { p with log := w.log })
        | .ok none => some (.ok (), { p with log := w.log })
        | .ok (some t) =>
          let name := mainFileName (pr.cfg.lavaName.show env) (pr.cfg.rate.show env)
          some (.ok (), { p with log := w.log, results := writeFile p.results (env.canon name) t })

end PyFlowGo
