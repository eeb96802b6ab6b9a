import Verif.Model.Num
import Mathlib.Analysis.SpecialFunctions.Pow.Real
import Mathlib.Analysis.SpecialFunctions.Log.Base
import Mathlib.Analysis.SpecialFunctions.Trigonometric.Basic
import Mathlib.Analysis.SpecialFunctions.Sqrt
import Mathlib.MeasureTheory.Integral.IntervalIntegral.Basic
/-
  The number type of the proofs: real numbers with Python's partiality. See the trusted base in
  DESIGN.md for what is lost with respect to IEEE doubles (rounding, overflow, nan, inf).
-/
namespace PyFlowGo
open Classical

/-- `y` is integer valued (Python's test for a real result of a negative base). -/
def IsInt (y : ℝ) : Prop := ∃ n : ℤ, (n : ℝ) = y

/-- `x ** y` and `math.pow(x, y)`: ZeroDivisionError / ValueError for zero to a negative power, no real
    result for a negative base with a non-integer exponent. -/
noncomputable def realPow (zeroErr negErr : Err) (x y : ℝ) : Except Err ℝ :=
  if x = 0 ∧ y < 0 then .error zeroErr
  else if x < 0 ∧ ¬ IsInt y then .error negErr
  else .ok (x ^ y)

noncomputable instance : PyNum ℝ where
  leB x y := decide (x ≤ y)
  ltB x y := decide (x < y)
  eqB x y := decide (x = y)
  div x y := if y = 0 then .error .zeroDiv else .ok (x / y)
  pow := realPow .zeroDiv .complexResult
  mpow := realPow .mathDomain .mathDomain
  npow x n := x ^ n
  exp := Real.exp
  sin := Real.sin
  sqrt := Real.sqrt
  erf x := 2 / Real.sqrt Real.pi * ∫ t in (0 : ℝ)..x, Real.exp (-t ^ 2)
  log10 x := if x ≤ 0 then .error .mathDomain else .ok (Real.logb 10 x)
  pi := Real.pi
  absv x := |x|
  truncInt x := if 0 ≤ x then ⌊x⌋ else ⌈x⌉
  ofInt n := (n : ℝ)

end PyFlowGo
