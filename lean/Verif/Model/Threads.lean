import Verif.Model.Run
/-
  Several simulations in the threads of one Python process. Every run builds its own terrain, models, integrator and state
  (run_flowgo.py:68-101), but `FlowGoLogger` is a singleton (flowgo_logger.py:19-25): all threads write into one log.
  Simplification: threads take turns between the constructor, the preparation, single calls of `single_step` and the writing of
  the file, not inside them (a lock around each, or a scheduler that switches only there). Real threads have these schedules
  and more.
-/
namespace PyFlowGo
variable {α : Type}

/-- How far a thread that executes `RunFlowgo().run(json_file, path_to_folder)` has come. -/
inductive Task (α : Type) where
  /-- before `RunFlowgo()`, run_flowgo.py:30 -/
  | create (jsonFile folder : String)
  /-- the runner exists, `run` has not begun: run_flowgo.py:37 -/
  | begin (jsonFile folder : String)
  /-- in the loop of run_flowgo.py:105-106, with the integrator, the own objects of the run (the `log` field is not theirs and is
      replaced by the shared one at every step) and the name of the file to be written -/
  | loop (name : String) (g : Integrator α) (w : World α)
  /-- returned or raised -/
  | done (r : Except Err Unit)

variable [Add α] [Sub α] [Mul α] [Neg α] [OfScientific α] [PyNum α]

/-- One step of a thread: the constructor (run_flowgo.py:30-35), the preparation with the depth search (lines 37-103), one
    `single_step` (106), or the writing of the result file (107-108). -/
def Task.step (grid : List α) (env : Env α) : Task α → Proc α → Task α × Proc α
  | .create j f, p => (.begin j f, newRunner p)
  | .begin j f, p =>
    match lookup p.json (env.canon j) with
    | none => (.done (.error .fileNotFound), p)
    | some data =>
      match prepare env data p.log with
      | .error e => (.done (.error e), p)
      | .ok pr =>
        match initEffusionRateOn grid pr.integrator.models.lava pr.world with
        | (.error e, w) => (.done (.error e), { p with log := w.log })
        | (.ok _, w) =>
          (.loop (resultFileName f (pr.cfg.lavaName.show env) (pr.cfg.rate.show env)) pr.integrator w, { p with log := w.log })
  | .loop name g w, p =>
    if w.finished then
      match writeValues p.log with
      | .error e => (.done (.error e), p)
      | .ok none => (.done (.ok ()), p)
      | .ok (some t) => (.done (.ok ()), { p with results := writeFile p.results (env.canon name) t })
    else
      match singleStep g { w with log := p.log } with
      | (.error e, w') => (.done (.error e), { p with log := w'.log })
      | (.ok _, w') => (.loop name g w', { p with log := w'.log })
  | .done r, p => (.done r, p)

/-- The threads of a process and what they share: the files and the log. -/
structure Threads (α : Type) where
  tasks : List (Task α)
  proc : Proc α

/-- Thread number `i` takes a step. -/
def Threads.step (grid : List α) (env : Env α) (s : Threads α) (i : Nat) : Threads α :=
  match s.tasks[i]? with
  | none => s
  | some t => ⟨s.tasks.set i (t.step grid env s.proc).1, (t.step grid env s.proc).2⟩

/-- A schedule says which thread takes the next step. -/
def Threads.exec (grid : List α) (env : Env α) (s : Threads α) (sched : List Nat) : Threads α :=
  sched.foldl (Threads.step grid env) s

end PyFlowGo
