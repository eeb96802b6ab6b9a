import Verif.Model.Num
/-
  `Float` instance of the number interface, for executing the model only (validation against the
  expected values in /repo/tests and /repo/results_flowgo). No theorem uses it.
-/
namespace PyFlowGo

/-- erf by its Maclaurin series (|x| <= 3) and 1 - erfc continued fraction beyond. -/
def floatErf (x : Float) : Float := Id.run do
  let ax := x.abs
  if ax > 6.0 then return (if x > 0.0 then 1.0 else -1.0)
  let mut term := x
  let mut sum := x
  for i in [1:200] do
    let n := i.toFloat
    term := -term * x * x / n
    sum := sum + term / (2.0 * n + 1.0)
  return 2.0 / Float.sqrt 3.141592653589793 * sum

def floatPow (zeroErr negErr : Err) (x y : Float) : Except Err Float :=
  if x == 0.0 && y < 0.0 then .error zeroErr
  else if x < 0.0 && y.floor != y then .error negErr
  else .ok (x ^ y)

def floatOfInt (n : Int) : Float := if n ≥ 0 then n.toNat.toFloat else -((-n).toNat.toFloat)

instance : PyNum Float where
  leB x y := x <= y
  ltB x y := x < y
  eqB x y := x == y
  div x y := if y == 0.0 then .error .zeroDiv else .ok (x / y)
  pow := floatPow .zeroDiv .complexResult
  mpow := floatPow .mathDomain .mathDomain
  npow x n := x ^ n.toFloat
  exp := Float.exp
  sin := Float.sin
  sqrt := Float.sqrt
  erf := floatErf
  log10 x := if x <= 0.0 then .error .mathDomain else .ok (Float.log10 x)
  pi := 3.141592653589793
  absv := Float.abs
  truncInt x := if x >= 0.0 then (x.floor.toUInt64.toNat : Int) else -((-x).floor.toUInt64.toNat : Int)
  ofInt := floatOfInt

end PyFlowGo
