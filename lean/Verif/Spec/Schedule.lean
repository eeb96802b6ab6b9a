import Verif.Model.Process
import Verif.Spec.SweepText
/-
  Specification of schedules (C107, C108, C109): what a process does on its own, and which files it touches.
-/
namespace PyFlowGo.Spec
variable {α : Type}

abbrev Files := List (String × List Char)

/-- The same files with the same contents. -/
def SameFiles (d d' : Files) : Prop := ∀ q, lookup d q = lookup d' q

/-- What a process does next. -/
inductive Action where
  | done
  | reads (path : String)
  | writes (path : String)

def nextAction {ρ : Type} : Prog ρ → Action
  | .ret _ => .done
  | .read p _ => .reads p
  | .write p _ _ => .writes p

/-- A process on its own, after `n` steps. -/
def alone {ρ : Type} (p : Prog ρ) (d : Files) : Nat → Prog ρ × Files
  | 0 => (p, d)
  | n + 1 => (alone p d n).1.step (alone p d n).2

/-- On its own the process at some time opens the file to read it. -/
def ReadsAlone {ρ : Type} (p : Prog ρ) (d : Files) (q : String) : Prop := ∃ n, nextAction (alone p d n).1 = .reads q

/-- On its own the process at some time writes the file. -/
def WritesAlone {ρ : Type} (p : Prog ρ) (d : Files) (q : String) : Prop := ∃ n, nextAction (alone p d n).1 = .writes q

/-- No process writes (on its own) a file that another one reads or writes. -/
def Independent {ρ : Type} (ps : List (Prog ρ)) (d : Files) : Prop :=
  ∀ (i j : Nat) (p p' : Prog ρ), i ≠ j → ps[i]? = some p → ps[j]? = some p' → ∀ q, WritesAlone p d q → ¬ ReadsAlone p' d q ∧ ¬ WritesAlone p' d q

/-- The disk after any number of attempts, each of them stopped at any moment (or not at all). -/
inductive Attempts {ρ : Type} (p : Prog ρ) (d : Files) : Files → Prop
  | none : Attempts p d d
  | again {e : Files} (n : Nat) : Attempts p d e → Attempts p d (alone p e n).2

/-- The platform and the parameters all processes have in common. -/
structure Machine (α : Type) where
  grid : List α
  fuel : Nat
  F : TextFormat α
  numText : α → List Char
  flush : List Char → List Nat

/-- What a user starts in a process of its own. -/
inductive Job where
  | run (jsonFile folder : String)
  | sweep (jsonFile folder : String) (first last step : Int)

section
variable [Add α] [Sub α] [Mul α] [Neg α] [OfScientific α] [PyNum α]

/-- The process of a job; the outcome of a run is the empty list of names. -/
def Job.prog (M : Machine α) : Job → Prog (Option (Except Err (List String)))
  | .run j f => (runProg M.grid M.fuel M.F M.flush j f).bind fun r => .ret (r.map fun o => o.map fun _ => [])
  | .sweep j f a b c => sweepProg M.grid M.fuel M.F M.numText M.flush j f a b c

/-- The job with nobody else around: outcome and files (`none`: does not end within the fuel). -/
def Job.result (M : Machine α) (d : Files) : Job → Option (Except Err (List String) × Files)
  | .run j f => (runTextOn M.grid M.fuel M.F j f d).map fun o => (o.1.map fun _ => [], o.2)
  | .sweep j f a b c => sweepText M.grid M.fuel M.F M.numText j f a b c d

end

/-- The configuration in a file. -/
def Holds (F : TextFormat α) [OfScientific α] [PyNum α] (d : Files) (jsonFile : String) (data : Json α) : Prop :=
  ∃ text, lookup d (F.canon jsonFile) = some text ∧ JsonText F.float (universal text) data

/-- The files a run may read: the configuration, and if that is one, the slope profile it names and the crust-temperature
    profile. -/
def RunReads (F : TextFormat α) [OfScientific α] [PyNum α] (d : Files) (jsonFile : String) (q : String) : Prop :=
  q = F.canon jsonFile ∨ ∃ (data : Json α) (path : String), Holds F d jsonFile data ∧ MayRead data path ∧ q = F.canon path

/-- The file a run may write: the result file named after lava and effusion rate. -/
def RunWrites (F : TextFormat α) [OfScientific α] [PyNum α] (d : Files) (jsonFile folder : String) (q : String) : Prop :=
  ∃ (data rate lava : Json α), Holds F d jsonFile data ∧ TopEntry data "effusion_rate_init" rate ∧ TopEntry data "lava_name" lava ∧
    q = F.canon (resultFileName folder (lava.show (textEnv F [])) (rate.show (textEnv F [])))

/-- The files a sweep may read: the template, and if that is a configuration, the working copy and the profiles a run on the
    template may read. -/
def SweepReads (F : TextFormat α) [OfScientific α] [PyNum α] (d : Files) (jsonFile folder : String) (q : String) : Prop :=
  q = F.canon jsonFile ∨ ∃ template : Json α, Holds F d jsonFile template ∧
    (q = F.canon (workingFile jsonFile folder) ∨ ∃ path, MayRead template path ∧ q = F.canon path)

/-- The files a sweep may write: the working copy and the result files of its rates. -/
def SweepWrites (F : TextFormat α) [OfScientific α] [PyNum α] (d : Files) (jsonFile folder : String) (first last step : Int) (q : String) : Prop :=
  ∃ (template : Json α) (rates : List Int) (r : Int), Holds F d jsonFile template ∧ sweepRates first last step = .ok rates ∧ r ∈ rates ∧
    (q = F.canon (workingFile jsonFile folder) ∨
      ∃ lava, TopEntry template "lava_name" lava ∧ q = F.canon (resultFileName folder (lava.show (textEnv F [])) (toString r)))

/-- The files a job may read. -/
def Job.MayRead (F : TextFormat α) [OfScientific α] [PyNum α] (d : Files) : Job → String → Prop
  | .run j _, q => RunReads F d j q
  | .sweep j f _ _ _, q => SweepReads F d j f q

/-- The files a job may write. -/
def Job.MayWrite (F : TextFormat α) [OfScientific α] [PyNum α] (d : Files) : Job → String → Prop
  | .run j f, q => RunWrites F d j f q
  | .sweep j f a b c, q => SweepWrites F d j f a b c q

section
variable [Add α] [Sub α] [Mul α] [Neg α] [OfScientific α] [PyNum α]

/-- The disk of a sweep that is busy with rate `r`, when `before` is what the sweep over the earlier rates left: every file is
    as it was then, but the working copy may be a beginning of the configuration for `r` (or all of it), and the result file of
    `r` may be a beginning of the file the run for `r` writes (or all of it). -/
def Busy (M : Machine α) (template : Json α) (working folder : String) (before : Files) (r : Int) (e : Files) : Prop :=
  ∃ data : Json α, WithRate template data r ∧
    let text := stored M.F.windows (jsonDump M.numText data)
    JsonText M.F.float (universal text) data ∧
    ∀ q, lookup e q = lookup before q ∨
      (q = M.F.canon working ∧ ∃ n, lookup e q = some (text.take n)) ∨
      ∃ lava out n, TopEntry template "lava_name" lava ∧ q = M.F.canon (resultFileName folder (lava.show (textEnv M.F [])) (toString r)) ∧
        runTextOn M.grid M.fuel M.F working folder ((M.F.canon working, text) :: before) = some (.ok (), (q, out) :: (M.F.canon working, text) :: before) ∧
        lookup e q = some (out.take n)

/-- The disk of a sweep at some moment: for some `m` the sweep over the first `m` rates is complete, and nothing else has been
    done, or the sweep is busy with the next rate. -/
def HalfDone (M : Machine α) (template : Json α) (jsonFile folder : String) (first step : Int) (rates : List Int) (d e : Files) : Prop :=
  ∃ m last' names before, sweepRates first last' step = .ok (rates.take m) ∧
    sweepText M.grid M.fuel M.F M.numText jsonFile folder first last' step d = some (.ok names, before) ∧
    (SameFiles e before ∨ ∃ r, rates[m]? = some r ∧ Busy M template (workingFile jsonFile folder) folder before r e)

end

end PyFlowGo.Spec
