import Verif.Model.RealNum
/-
  A third number type for the proofs: the numbers the program really computes with, a mixture of Python floats and numpy
  scalars with infinities, `nan` and signed zeros.

  `flowgo_integrator.py:52` takes the depth from `np.arange`, so after a depth search the depth is a `numpy.float64`, and
  so is everything computed from it; `scipy` splines return numpy values.  Arithmetic between a Python float and a numpy
  scalar is done by numpy, where a division by zero gives an infinity or `nan` (and a warning), while between two Python
  floats it raises `ZeroDivisionError`; the functions of `math` return Python floats.

  `rd : ℝ → ℝ` rounds the finite results as in `Model/RoundNum.lean`.  Not modelled: overflow (a finite result is
  never rounded to an infinity, `OverflowError` is never raised).
-/
namespace PyFlowGo
open Classical

/-- The values of a double: finite (`fin`, the flag is the sign of a zero and is ignored otherwise), infinite, `nan`. -/
inductive Ext where
  | fin (neg : Bool) (x : ℝ)
  | inf (neg : Bool)
  | nan

namespace Ext

/-- The sign bit. -/
noncomputable def isNeg : Ext → Bool
  | fin s x => if x = 0 then s else decide (x < 0)
  | inf s => s
  | nan => false

/-- `-a` -/
noncomputable def neg : Ext → Ext
  | fin s x => fin (!s) (-x)
  | inf s => inf (!s)
  | nan => nan

/-- `a + b` (IEEE 754, rounding to nearest: an exact sum of zero is `+0` unless both terms are `-0`). -/
noncomputable def add (rd : ℝ → ℝ) : Ext → Ext → Ext
  | fin s x, fin t y => fin (if x = 0 ∧ y = 0 then s && t else decide (x + y < 0)) (rd (x + y))
  | fin _ _, inf t => inf t
  | inf s, fin _ _ => inf s
  | inf s, inf t => if s = t then inf s else nan
  | _, _ => nan

/-- `a * b` -/
noncomputable def mul (rd : ℝ → ℝ) : Ext → Ext → Ext
  | fin s x, fin t y => fin ((fin s x).isNeg ^^ (fin t y).isNeg) (rd (x * y))
  | fin s x, inf t => if x = 0 then nan else inf ((fin s x).isNeg ^^ t)
  | inf s, fin t y => if y = 0 then nan else inf (s ^^ (fin t y).isNeg)
  | inf s, inf t => inf (s ^^ t)
  | _, _ => nan

/-- `a / b` as numpy computes it, zero divisors included. -/
noncomputable def quot (rd : ℝ → ℝ) : Ext → Ext → Ext
  | fin s x, fin t y =>
    if y = 0 then (if x = 0 then nan else inf ((fin s x).isNeg ^^ (fin t y).isNeg))
    else fin ((fin s x).isNeg ^^ (fin t y).isNeg) (rd (x / y))
  | fin s x, inf t => fin ((fin s x).isNeg ^^ t) 0
  | inf s, fin t y => inf (s ^^ (fin t y).isNeg)
  | _, _ => nan

/-- An odd integer. -/
def IsOdd (y : ℝ) : Prop := ∃ n : ℤ, (2 * n + 1 : ℝ) = y

/-- `a ** b` as numpy computes it (C99 `pow`). -/
noncomputable def power (rd : ℝ → ℝ) : Ext → Ext → Ext
  | fin s x, fin _ y =>
    if x = 0 ∧ y < 0 then inf (s && decide (IsOdd y))
    else if x < 0 ∧ ¬ IsInt y then nan
    else fin ((fin s x).isNeg && decide (IsOdd y)) (rd (x ^ y))
  | fin _ x, inf t => if |x| = 1 then fin false (rd 1) else if (1 < |x|) = (t = false) then inf false else fin false 0
  | inf s, fin _ y =>
    if y = 0 then fin false (rd 1)
    else if y < 0 then fin (s && decide (IsOdd y)) 0
    else inf (s && decide (IsOdd y))
  | inf _, inf t => if t then fin false 0 else inf false
  | nan, fin _ y => if y = 0 then fin false (rd 1) else nan
  | fin _ x, nan => if x = 1 then fin false (rd 1) else nan
  | _, _ => nan

/-- `a ** n` for a literal non-negative integer. -/
noncomputable def ipow (rd : ℝ → ℝ) (n : Nat) : Ext → Ext
  | fin s x => fin ((fin s x).isNeg && decide (n % 2 = 1)) (rd (x ^ n))
  | inf s => if n = 0 then fin false (rd 1) else inf (s && decide (n % 2 = 1))
  | nan => if n = 0 then fin false (rd 1) else nan

/-- `abs(a)` -/
noncomputable def abs : Ext → Ext
  | fin _ x => fin false |x|
  | inf _ => inf false
  | nan => nan

/-- `a <= b`; every comparison with `nan` is false. -/
noncomputable def le : Ext → Ext → Bool
  | fin _ x, fin _ y => decide (x ≤ y)
  | fin _ _, inf t => !t
  | inf s, fin _ _ => s
  | inf s, inf t => s || !t
  | _, _ => false

/-- `a < b` -/
noncomputable def lt : Ext → Ext → Bool
  | fin _ x, fin _ y => decide (x < y)
  | fin _ _, inf t => !t
  | inf s, fin _ _ => s
  | inf s, inf t => s && !t
  | _, _ => false

/-- `a == b` (the two zeros are equal) -/
noncomputable def eq : Ext → Ext → Bool
  | fin _ x, fin _ y => decide (x = y)
  | inf s, inf t => s == t
  | _, _ => false

/-- A zero of either sign. -/
def IsZero : Ext → Prop
  | fin _ x => x = 0
  | _ => False

end Ext

/-- A number of the program: its value, and whether it is a numpy scalar or a Python float. -/
structure Scalar (rd : ℝ → ℝ) where
  np : Bool
  val : Ext

namespace Scalar
variable {rd : ℝ → ℝ}

/-- A Python float with the value nearest to a real number. -/
noncomputable def py (x : ℝ) : Scalar rd := ⟨false, .fin (decide (x < 0)) (rd x)⟩

noncomputable instance : Add (Scalar rd) := ⟨fun a b => ⟨a.np || b.np, .add rd a.val b.val⟩⟩
noncomputable instance : Sub (Scalar rd) := ⟨fun a b => ⟨a.np || b.np, .add rd a.val b.val.neg⟩⟩
noncomputable instance : Mul (Scalar rd) := ⟨fun a b => ⟨a.np || b.np, .mul rd a.val b.val⟩⟩
noncomputable instance : Neg (Scalar rd) := ⟨fun a => ⟨a.np, a.val.neg⟩⟩
noncomputable instance : OfScientific (Scalar rd) := ⟨fun m s e => py (OfScientific.ofScientific m s e : ℝ)⟩

/-- `x / y`: `ZeroDivisionError` only between two Python floats. -/
noncomputable def quot (a b : Scalar rd) : Except Err (Scalar rd) :=
  if b.val.IsZero ∧ a.np = false ∧ b.np = false then .error .zeroDiv
  else .ok ⟨a.np || b.np, .quot rd a.val b.val⟩

/-- The finite arguments for which `x ** y` of two Python floats, and `math.pow(x, y)`, is not a float. -/
noncomputable def powFault (zeroErr negErr : Err) : Ext → Ext → Option Err
  | .fin _ x, .fin _ y =>
    if x = 0 ∧ y < 0 then some zeroErr else if x < 0 ∧ ¬ IsInt y then some negErr else none
  | _, _ => none

/-- `x ** y`: numpy returns an infinity or `nan` where Python raises or returns a complex number. -/
noncomputable def power (a b : Scalar rd) : Except Err (Scalar rd) :=
  match powFault .zeroDiv .complexResult a.val b.val with
  | some e => if a.np = false ∧ b.np = false then .error e else .ok ⟨true, .power rd a.val b.val⟩
  | none => .ok ⟨a.np || b.np, .power rd a.val b.val⟩

/-- `math.pow(x, y)`: a Python float, whatever the arguments are. -/
noncomputable def mathPow (a b : Scalar rd) : Except Err (Scalar rd) :=
  match powFault .mathDomain .mathDomain a.val b.val with
  | some e => .error e
  | none => .ok ⟨false, .power rd a.val b.val⟩

/-- `math.exp` -/
noncomputable def expE : Ext → Ext
  | .fin _ x => .fin false (rd (Real.exp x))
  | .inf true => .fin false 0
  | .inf false => .inf false
  | .nan => .nan

/-- `math.sin`; Python raises `ValueError` for an infinite argument, which does not occur (slopes are finite): `nan` here. -/
noncomputable def sinE : Ext → Ext
  | .fin s x => .fin (if x = 0 then s else decide (Real.sin x < 0)) (rd (Real.sin x))
  | _ => .nan

/-- `math.sqrt`, only ever applied to `math.pi`. -/
noncomputable def sqrtE : Ext → Ext
  | .fin s x => .fin s (rd (Real.sqrt x))
  | .inf false => .inf false
  | _ => .nan

/-- `math.erf` -/
noncomputable def erfE : Ext → Ext
  | .fin s x => .fin ((Ext.fin s x).isNeg) (rd (2 / Real.sqrt Real.pi * ∫ t in (0 : ℝ)..x, Real.exp (-t ^ 2)))
  | .inf false => .fin false (rd 1)
  | .inf true => .fin true (rd (-1))
  | .nan => .nan

/-- `math.log10` -/
noncomputable def log10E : Ext → Except Err Ext
  | .fin _ x => if x ≤ 0 then .error .mathDomain
    else .ok (.fin (decide (Real.logb 10 x < 0)) (rd (Real.logb 10 x)))
  | .inf false => .ok (.inf false)
  | .inf true => .error .mathDomain
  | .nan => .ok .nan

noncomputable instance : PyNum (Scalar rd) where
  leB a b := a.val.le b.val
  ltB a b := a.val.lt b.val
  eqB a b := a.val.eq b.val
  div := quot
  pow := power
  mpow := mathPow
  npow a n := ⟨a.np, a.val.ipow rd n⟩
  exp a := ⟨false, expE (rd := rd) a.val⟩
  sin a := ⟨false, sinE (rd := rd) a.val⟩
  sqrt a := ⟨false, sqrtE (rd := rd) a.val⟩
  erf a := ⟨false, erfE (rd := rd) a.val⟩
  log10 a := (log10E (rd := rd) a.val).map (⟨false, ·⟩)
  pi := py Real.pi
  absv a := ⟨a.np, a.val.abs⟩
  -- `int(x)`; Python raises for a value that is not finite, which does not occur (it is applied to configured numbers)
  truncInt a := match a.val with
    | .fin _ x => if 0 ≤ x then ⌊x⌋ else ⌈x⌉
    | _ => 0
  ofInt n := py (n : ℝ)

end Scalar
end PyFlowGo
