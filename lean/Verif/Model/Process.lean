import Verif.Model.SweepText
/-
  Runs and sweeps as processes: the same code as Run.lean, RunText.lean and SweepText.lean, but every opening of a file is a
  step of its own, so that other processes can act in between. A run opens its configuration once in `run` itself, once in the
  terrain, once in the factory, once per model and flux, once in the integrator and once in the state.
  Reading a file is one step. Writing a file is several: opening for writing truncates it, then buffered text reaches the disk.
-/
namespace PyFlowGo
variable {α : Type}

/-- What a process does next with the files: nothing more (its outcome), open a file to read it (`none`: there is none), or put
    a text into a file. Paths are canonical. -/
inductive Prog (ρ : Type) where
  | ret (r : ρ)
  | read (path : String) (k : Option (List Char) → Prog ρ)
  | write (path : String) (text : List Char) (k : Prog ρ)

/-- One process after the other. -/
def Prog.bind {ρ σ : Type} : Prog ρ → (ρ → Prog σ) → Prog σ
  | .ret r, f => f r
  | .read p k, f => .read p fun t => (k t).bind f
  | .write p t k, f => .write p t (k.bind f)

/-- A statement that may raise, followed by the rest. -/
def Prog.andThen {ρ σ : Type} (p : Prog (Except Err ρ)) (f : ρ → Prog (Except Err σ)) : Prog (Except Err σ) :=
  p.bind fun
    | .error e => .ret (.error e)
    | .ok r => f r

/-- One step of a process on the disk. -/
def Prog.step {ρ : Type} : Prog ρ → List (String × List Char) → Prog ρ × List (String × List Char)
  | .ret r, d => (.ret r, d)
  | .read p k, d => (k (lookup d p), d)
  | .write p t k, d => (k, writeFile d p t)

/-- A process that runs alone, up to its end. -/
def Prog.run {ρ : Type} : Prog ρ → List (String × List Char) → ρ × List (String × List Char)
  | .ret r, d => (r, d)
  | .read p k, d => (k (lookup d p)).run d
  | .write p t k, d => k.run (writeFile d p t)

/-- Several processes on one disk. -/
structure Sys (ρ : Type) where
  procs : List (Prog ρ)
  disk : List (String × List Char)

/-- Process number `i` takes a step. -/
def Sys.step {ρ : Type} (s : Sys ρ) (i : Nat) : Sys ρ :=
  match s.procs[i]? with
  | none => s
  | some p => ⟨s.procs.set i (p.step s.disk).1, (p.step s.disk).2⟩

/-- A schedule says which process takes the next step. -/
def Sys.exec {ρ : Type} (s : Sys ρ) (sched : List Nat) : Sys ρ := sched.foldl Sys.step s

/-- `with open(p, 'w') as f: …`: the file is emptied, then the buffered text reaches the disk piece by piece (`flush` says after
    how many characters), at last the whole text (flowgo_logger.py:51-55, run_flowgo_effusion_rate_array.py:59-60).
    Simplification: every flush makes the file a beginning of the text. If two processes have the same file open for writing at once,
    a real file may in between have a hole of NUL characters where the other one has not yet written; once both have been
    closed the difference is gone. -/
def Prog.save {ρ : Type} (flush : List Char → List Nat) (p : String) (text : List Char) (k : Prog ρ) : Prog ρ :=
  .write p [] ((flush text).foldr (fun n k => .write p (text.take n) k) (.write p text k))

/-- Another program saves a file: the editor (edit_json.py:167-168, 180-181), the vent helper
    (run_flowgo_effusion_rate_array.py:31-32), or any other that opens it for writing and writes `text`. -/
def saveProg (flush : List Char → List Nat) (path : String) (text : List Char) : Prog (Option (Except Err (List String))) :=
  .save flush path text (.ret (some (.ok [])))

variable [Add α] [Sub α] [Mul α] [Neg α] [OfScientific α] [PyNum α]

omit [Add α] [Sub α] [Mul α] [Neg α] in
/-- `with open(filename) as data_file: data = json.load(data_file)` followed by the reading of entries. -/
def readerProg {β : Type} (F : TextFormat α) (jsonFile : String) (f : Json α → Except Err β) : Prog (Except Err β) :=
  .read (F.canon jsonFile) fun
    | none => .ret (.error .fileNotFound)
    | some text => match jsonLoad F.float text with
      | .error e => .ret (.error e)
      | .ok data => .ret (f data)

omit [Add α] [Sub α] [Mul α] [Neg α] [OfScientific α] [PyNum α] in
/-- The chain of `if name == …: … else: raise NameError` in the factory comes before the reader opens the file. -/
def namedProg {β : Type} (names : List String) (name : Json α) (p : Prog (Except Err β)) : Prog (Except Err β) :=
  if names.any fun s => name.isStr s then p else .ret (.error .nameError)

/-- run_flowgo.py:71 with flowgo_terrain_condition.py:73-121. -/
def slopeProg (F : TextFormat α) (t : Terrain α) (slopeFile : Json α) : Prog (Except Err (Terrain α)) :=
  match (match slopeFile with
    | .str s => some s
    | .null => some "../MaunaUlu74/DEM_maunaulu74.txt"
    | _ => none) with
  | none => .ret (.error .typeError)
  | some p => .read (F.canon p) fun text =>
      .ret (match text.bind fun t => (slopeRows F.float (dataLines t)).toOption with
        | none => .error .fileNotFound
        | some lines => t.readSlope lines)

/-- flowgo_model_factory.py:331-356 with the readers of the crust models; the field model opens its profile first (line 346). -/
def crustProg (F : TextFormat α) (jsonFile : String) (name : Json α) : Prog (Except Err (CrustModel α)) :=
  if name.isStr "field" then
    .read (F.canon "resources/crust_temperature_profile.txt") fun text =>
      match text.bind fun t => (crustRows F.float (dataLines t)).toOption with
      | none => .ret (.error .fileNotFound)
      | some rows => match readCrustField rows with
        | .error e => .ret (.error e)
        | .ok _ => readerProg F jsonFile fun data => buildCrust { textEnv F [] with crustFile := fun _ => some rows } data name
  else
    namedProg ["constant", "hon", "bimodal"] name (readerProg F jsonFile fun data => buildCrust (textEnv F []) data name)

/-- flowgo_heat_budget.py:34-37: every flux opens the file. -/
def fluxesProg (F : TextFormat α) (jsonFile : String) : List FluxKind → Prog (Except Err (List (Flux α)))
  | [] => .ret (.ok [])
  | k :: ks =>
    (readerProg F jsonFile fun data => readFlux (textEnv F []) data k).andThen fun f =>
      (fluxesProg F jsonFile ks).andThen fun fs => .ret (.ok (f :: fs))

/-- flowgo_model_factory.py:92-450. -/
def factoryProg (F : TextFormat α) (jsonFile : String) : Prog (Except Err (Models α)) :=
  let env := textEnv F []
  (readerProg F jsonFile readNames).andThen fun n =>
  (namedProg ["basic", "bimodal", "bimodal_f_temp", "melts"] n.cryst (readerProg F jsonFile fun data => buildCryst env data n.cryst)).andThen fun cryst =>
  (readerProg F jsonFile (buildAir env)).andThen fun air =>
  (namedProg ["constant", "bimodal", "variable", "variable_bimodal", "poly"] n.ves
    (readerProg F jsonFile fun data => buildVes env data n.ves)).andThen fun ves =>
  (namedProg ["basic", "shaw", "vft"] n.melt (readerProg F jsonFile fun data => buildMelt env data n.melt)).andThen fun melt =>
  (namedProg ["er", "kd", "mp", "mp_mueller", "mader", "bll", "ptp1", "ptp2", "ptp3", "costa1", "costa2"] n.rel
    (readerProg F jsonFile fun data => buildRel env data n.rel ves melt)).andThen fun rel =>
  (namedProg ["rigid", "deformable", "no", "mader"] n.bub (readerProg F jsonFile fun data => buildBub env data n.bub ves melt rel)).andThen fun bub =>
  (namedProg ["basic", "dragoni", "dragoni-alone", "ryerson", "bll"] n.yld
    (readerProg F jsonFile fun data => buildYield env data n.yld)).andThen fun yld =>
  (readerProg F jsonFile fun data => buildLava env data melt rel bub yld ves).andThen fun lava =>
  (namedProg ["basic", "bimodal"] n.cover (readerProg F jsonFile fun data => buildCover env data n.cover)).andThen fun cover =>
  (crustProg F jsonFile n.crust).andThen fun crust =>
  (Prog.ret (selectFluxes n)).andThen fun kinds =>
  (fluxesProg F jsonFile kinds).andThen fun fluxes =>
  .ret (.ok { lava, air, crust, cover, cryst, fluxes })

omit [Add α] [Sub α] [Mul α] [Neg α] in
/-- flowgo_integrator.py:219-224: the integrator's own copies. -/
def integratorEntries (env : Env α) (data : Json α) : Except Err (α × α × α) := do
  let v ← data.get "effusion_rate_init"
  let e ← v.toFloat env
  let w ← getF env data "terrain_conditions" "width"
  let d ← getF env data "terrain_conditions" "depth"
  return (e, w, d)

omit [Add α] [Sub α] [Mul α] [Neg α] in
/-- flowgo_state.py:81-86. -/
def stateEntries (env : Env α) (data : Json α) : Except Err (α × α) := do
  let pos ← getF env data "lava_state" "position"
  let time ← getF env data "lava_state" "time"
  return (pos, time)

/-- run_flowgo.py:38-101, every opening of a file a step. The initial strain rate is computed from the integrator's own copies
    (flowgo_integrator.py:238). -/
def prepareProg (F : TextFormat α) (jsonFile : String) : Prog (Except Err (Prepared α)) :=
  let env := textEnv F []
  (readerProg F jsonFile (readRunConfig env)).andThen fun cfg =>
  (readerProg F jsonFile (buildTerrain env)).andThen fun t0 =>
  (slopeProg F t0 cfg.slopeFile).andThen fun t =>
  (factoryProg F jsonFile).andThen fun models =>
  (readerProg F jsonFile (integratorEntries env)).andThen fun (e, w, d) =>
  (readerProg F jsonFile (stateEntries env)).andThen fun (pos, time) =>
  (Prog.ret (initialState models { t with effusionRateInit := e, width := w, depth := d } pos time)).andThen fun st =>
  .ret (.ok { cfg, integrator := { dx := cfg.stepSize, models, massConservation := cfg.massConservation }, world := newWorld t st [] })

/-- run_flowgo.py:103-109: the simulation (no file is touched), then the result file. The outcome `none`: still running after
    `fuel` iterations. -/
def finishProg (grid : List α) (fuel : Nat) (F : TextFormat α) (flush : List Char → List Nat) (folder : String) (pr : Prepared α) :
    Prog (Option (Except Err Unit)) :=
  match simulateOn grid fuel pr.integrator pr.world with
  | none => .ret none
  | some (.error e, _) => .ret (some (.error e))
  | some (.ok _, w) =>
    match writeValues w.log with
    | .error e => .ret (some (.error e))
    | .ok none => .ret (some (.ok ()))
    | .ok (some t) =>
      .save flush (F.canon (resultFileName folder (pr.cfg.lavaName.show (textEnv F [])) (pr.cfg.rate.show (textEnv F []))))
        (stored F.windows (t.text F.str)) (.ret (some (.ok ())))

/-- run_flowgo.py:30-109 `RunFlowgo().run(json_file, path_to_folder)` in a process of its own (the log is a singleton of the
    process, empty at the start). -/
def runProg (grid : List α) (fuel : Nat) (F : TextFormat α) (flush : List Char → List Nat) (jsonFile folder : String) :
    Prog (Option (Except Err Unit)) :=
  (prepareProg F jsonFile).bind fun
    | .error e => .ret (some (.error e))
    | .ok pr => finishProg grid fuel F flush folder pr

/-- run_flowgo_effusion_rate_array.py:52-71. -/
def sweepLoopProg (grid : List α) (fuel : Nat) (F : TextFormat α) (sn : α → List Char) (flush : List Char → List Nat) (base : Json α)
    (working folder : String) : List Int → List String → Prog (Option (Except Err (List String)))
  | [], names => .ret (some (.ok names))
  | r :: rest, names =>
    match base.set "effusion_rate_init" (.int r) with
    | .error e => .ret (some (.error e))
    | .ok data =>
      .save flush (F.canon working) (stored F.windows (jsonDump sn data))
        ((runProg grid fuel F flush working folder).bind fun
          | none => .ret none
          | some (.error e) => .ret (some (.error e))
          | some (.ok _) =>
            match data.get "lava_name" with
            | .error e => .ret (some (.error e))
            | .ok nm =>
              sweepLoopProg grid fuel F sn flush base working folder rest
                (names ++ [resultFileName folder (nm.show (textEnv F [])) (toString r)]))

/-- run_flowgo_effusion_rate_array.py:34-71 in a process of its own (before the plots). -/
def sweepProg (grid : List α) (fuel : Nat) (F : TextFormat α) (sn : α → List Char) (flush : List Char → List Nat)
    (jsonFile folder : String) (first last step : Int) : Prog (Option (Except Err (List String))) :=
  .read (F.canon jsonFile) fun
    | none => .ret (some (.error .fileNotFound))
    | some text => match jsonLoad F.float text with
      | .error e => .ret (some (.error e))
      | .ok base => match sweepRates first last step with
        | .error e => .ret (some (.error e))
        | .ok rates => sweepLoopProg grid fuel F sn flush base (workingFile jsonFile folder) folder rates []

end PyFlowGo
