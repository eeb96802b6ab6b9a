import Verif.Model.RoundNum
/-
  What is assumed of a rounding function, and what "equal up to k roundings" means.
-/
namespace PyFlowGo.Spec

/-- A rounding function as IEEE 754 has it (overflow aside): order preserving, the identity on the representable numbers
    (its own values), symmetric. -/
structure Rounding (rd : ℝ → ℝ) : Prop where
  mono : Monotone rd
  idem : ∀ x, rd (rd x) = rd x
  neg : ∀ x, rd (-x) = -rd x

/-- The rounding error is at most the relative error `u` (2^-53 for doubles) plus the absolute error `η` (underflow). -/
def Accurate (u η : ℝ) (rd : ℝ → ℝ) : Prop := ∀ x, |rd x - x| ≤ u * |x| + η

/-- A representable number. -/
def Representable (rd : ℝ → ℝ) (x : ℝ) : Prop := rd x = x

/-- `y` is `x` up to `k` relative errors of size at most `u`. -/
def Close (u : ℝ) (k : Nat) (x y : ℝ) : Prop := ∃ θ, (1 - u) ^ k ≤ θ ∧ θ * (1 - u) ^ k ≤ 1 ∧ y = x * θ

end PyFlowGo.Spec
