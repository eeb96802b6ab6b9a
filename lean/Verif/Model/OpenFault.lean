import Verif.Model.Process
/-
  Files that cannot be opened for writing (the folder does not exist, no permission): `open(path, 'w')` raises an OSError, at
  flowgo_logger.py:52 for a result, at run_flowgo_effusion_rate_array.py:59 for the working copy. Nothing in `RunFlowgo.run` or
  `run_flowgo_effusion_rate_array` catches it or creates a folder, so the process ends there.
-/
namespace PyFlowGo

/-- A process that runs alone on a disk where only the files in `may` can be opened for writing: the outcome, or the name of the
    file whose opening raised, and the disk that is left. -/
def Prog.runWhere {ρ : Type} (may : String → Bool) : Prog ρ → List (String × List Char) → Except String ρ × List (String × List Char)
  | .ret r, d => (.ok r, d)
  | .read p k, d => (k (lookup d p)).runWhere may d
  | .write p t k, d => if may p then k.runWhere may (writeFile d p t) else (.error p, d)

end PyFlowGo
