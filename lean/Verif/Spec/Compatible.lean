import Verif.Spec.Schedule
/-
  Specification of C110: processes that may write the same file, if they write the same into it.
-/
namespace PyFlowGo.Spec

/-- No process writes (on its own) a file another one reads, and what two of them write (each on its own) ends up the same. -/
def Compatible {ρ : Type} (ps : List (Prog ρ)) (d : Files) : Prop :=
  ∀ (i j : Nat) (p p' : Prog ρ), i ≠ j → ps[i]? = some p → ps[j]? = some p' → ∀ q, WritesAlone p d q →
    ¬ ReadsAlone p' d q ∧ (WritesAlone p' d q → lookup (p.run d).2 q = lookup (p'.run d).2 q)

end PyFlowGo.Spec
