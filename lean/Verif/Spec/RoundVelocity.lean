import Verif.Spec.RoundSpec
/-
  What the error bounds of the velocity assume of the number format, beside its accuracy.
-/
namespace PyFlowGo.Spec

/-- The numbers written in the velocity formula are representable. -/
def PlainNumbers (rd : ℝ → ℝ) : Prop := ∀ x ∈ ({1 / 2, 1, 3 / 2, 2, 3} : Set ℝ), Representable rd x

end PyFlowGo.Spec
