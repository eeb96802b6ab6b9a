import Verif.Model.Threads
/-
  Several runs in the threads of one process: what "alone", "the same own state", "the steps of a schedule" and "undisturbed" mean.
-/
namespace PyFlowGo.Spec
variable {α : Type}

/-- The thread has left the loop; only the result file remains to be written. -/
def AtEnd : Task α → Prop
  | .loop _ _ w => w.finished = true
  | _ => False

/-- Two threads are equally far and their own objects (state, terrain, models, integrator) hold the same values; the log is not
    compared. Once `saved` holds they may also have ended differently. -/
def SameOwn (saved : Prop) : Task α → Task α → Prop
  | .create j f, .create j' f' => j' = j ∧ f' = f
  | .begin j f, .begin j' f' => j' = j ∧ f' = f
  | .loop n g w, .loop n' g' w' => n' = n ∧ g' = g ∧ w' = { w with log := w'.log }
  | .done r, .done r' => r' = r ∨ saved
  | _, _ => False

variable [Add α] [Sub α] [Mul α] [Neg α] [OfScientific α] [PyNum α]

/-- `k` steps of a thread that is alone in its process. -/
def solo (grid : List α) (env : Env α) (t : Task α) (p : Proc α) : Nat → Task α × Proc α
  | 0 => (t, p)
  | k + 1 => (solo grid env t p k).1.step grid env (solo grid env t p k).2

/-- At one place of the schedule thread `i`, then at `t`, takes a step; `rest` is what comes after. -/
def Takes (grid : List α) (env : Env α) (s : Threads α) (sched : List Nat) (i : Nat) (t : Task α) (rest : List Nat) : Prop :=
  ∃ before, sched = before ++ i :: rest ∧ (s.exec grid env before).tasks[i]? = some t

/-- Nobody constructs a `RunFlowgo` during the schedule. -/
def NoConstructor (grid : List α) (env : Env α) (s : Threads α) (sched : List Nat) : Prop :=
  ∀ i j f rest, ¬ Takes grid env s sched i (.create j f) rest

/-- During the schedule the threads other than `i` neither construct a `RunFlowgo` nor execute a `single_step`; they may prepare
    their runs, write their files and end. -/
def OthersQuiet (grid : List α) (env : Env α) (s : Threads α) (sched : List Nat) (i : Nat) : Prop :=
  ∀ k t rest, k ≠ i → Takes grid env s sched k t rest →
    match t with
    | .create _ _ => False
    | .begin _ _ => True
    | .loop _ _ w => w.finished = true
    | .done _ => True

end PyFlowGo.Spec
