import Verif.Model.RealNum
/-
  A second number type for the proofs: real numbers computed with a rounding function.  Every arithmetic operation, every
  literal and every function of `math` returns the rounding `rd` of its exact result, as IEEE 754 prescribes for the
  operations of Python floats; comparisons, negation and `abs` are exact.  `rd` is arbitrary here: the theorems say what
  they assume of it (`Spec/RoundSpec.lean`).  Not modelled: overflow to `inf`, `nan`, the sign of zero; and the functions
  of `math` (`exp`, `sin`, `erf`, `log10`, `pow`), which the C library does not round correctly, are rounded here too.
-/
namespace PyFlowGo
open Classical

/-- The numbers of the arithmetic rounded by `rd`. -/
def Rounded (_rd : ℝ → ℝ) : Type := ℝ

namespace Rounded
variable {rd : ℝ → ℝ}

/-- The real number a rounded number denotes. -/
def val (x : Rounded rd) : ℝ := x

/-- The rounded number nearest to a real number: what an operation with this exact result returns. -/
def near (x : ℝ) : Rounded rd := rd x

instance : Add (Rounded rd) := ⟨fun x y => near (val x + val y)⟩
instance : Sub (Rounded rd) := ⟨fun x y => near (val x - val y)⟩
noncomputable instance : Mul (Rounded rd) := ⟨fun x y => near (val x * val y)⟩
instance : Neg (Rounded rd) := ⟨fun x => (-(val x) : ℝ)⟩
noncomputable instance : OfScientific (Rounded rd) := ⟨fun m s e => near (OfScientific.ofScientific m s e : ℝ)⟩

/-- `x ** y` and `math.pow(x, y)` with Python's partiality (see `realPow`), rounded. -/
noncomputable def powWith (zeroErr negErr : Err) (x y : Rounded rd) : Except Err (Rounded rd) :=
  if val x = 0 ∧ val y < 0 then .error zeroErr
  else if val x < 0 ∧ ¬ IsInt (val y) then .error negErr
  else .ok (near (val x ^ val y))

noncomputable instance : PyNum (Rounded rd) where
  leB x y := decide (val x ≤ val y)
  ltB x y := decide (val x < val y)
  eqB x y := decide (val x = val y)
  div x y := if val y = 0 then .error .zeroDiv else .ok (near (val x / val y))
  pow := powWith .zeroDiv .complexResult
  mpow := powWith .mathDomain .mathDomain
  npow x n := near (val x ^ n)
  exp x := near (Real.exp (val x))
  sin x := near (Real.sin (val x))
  sqrt x := near (Real.sqrt (val x))
  erf x := near (2 / Real.sqrt Real.pi * ∫ t in (0 : ℝ)..(val x), Real.exp (-t ^ 2))
  log10 x := if val x ≤ 0 then .error .mathDomain else .ok (near (Real.logb 10 (val x)))
  pi := near Real.pi
  absv x := (|val x| : ℝ)
  truncInt x := if 0 ≤ val x then ⌊val x⌋ else ⌈val x⌉
  ofInt n := near (n : ℝ)

end Rounded
end PyFlowGo
