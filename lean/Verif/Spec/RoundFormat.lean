import Verif.Spec.RoundSpec
import Mathlib.Data.Int.Log
/-
  The binary floating-point formats: `p` significant bits, quantum at least 2^e (gradual underflow), rounding to nearest
  (ties away from zero; IEEE's default differs on exact ties only), and the same with the largest finite number `M` in place
  of overflow.  Doubles: p = 53, e = -1074, M = (2^53 - 1) * 2^971.
-/
namespace PyFlowGo.Spec

/-- The spacing of the format around a positive number. -/
noncomputable def quantum (p : Nat) (e : ℤ) (x : ℝ) : ℝ := (2 : ℝ) ^ max (Int.log 2 x - p + 1) e

/-- Rounding to nearest for non-negative numbers. -/
noncomputable def binaryPos (p : Nat) (e : ℤ) (x : ℝ) : ℝ := (⌊x / quantum p e x + 1 / 2⌋ : ℝ) * quantum p e x

/-- Rounding to nearest. -/
noncomputable def binary (p : Nat) (e : ℤ) (x : ℝ) : ℝ := if 0 ≤ x then binaryPos p e x else -binaryPos p e (-x)

/-- Rounding to `p` significant bits without bounds on the exponent: what doubles do as long as nothing under- or overflows. -/
noncomputable def unbounded (p : Nat) (x : ℝ) : ℝ := binary p (Int.log 2 |x| - p) x

/-- Rounding to nearest with saturation at `M`. -/
noncomputable def saturated (p : Nat) (e : ℤ) (M : ℝ) (x : ℝ) : ℝ := max (-M) (min M (binary p e x))

end PyFlowGo.Spec
