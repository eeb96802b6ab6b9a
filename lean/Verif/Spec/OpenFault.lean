import Verif.Spec.Schedule
/-
  Specification for C114: where a file lies.
-/
namespace PyFlowGo.Spec

/-- The path names a file of the folder itself, not of a folder below it. -/
def DirectlyIn (folder path : String) : Prop := ∃ name : String, '/' ∉ name.toList ∧ path = pathJoin folder name

/-- The disk while a sweep works on one rate, its working copy written. -/
def WithWorkingCopy {α : Type} (M : Machine α) (working : String) (data : Json α) (before : Files) : Files :=
  (M.F.canon working, stored M.F.windows (jsonDump M.numText data)) :: before

end PyFlowGo.Spec
