/-
  Numbers and exceptions.

  The code under study computes with Python floats.  The model is polymorphic in the number type:
  the total ring operations come from the standard classes, everything partial (or order related)
  comes from `PyNum`.  `Verif/Model/RealNum.lean` instantiates it at `ℝ` (proofs) and
  `Verif/Exec/FloatNum.lean` at `Float` (execution of the model only).
-/
namespace PyFlowGo

/-- The Python exceptions the modelled code can raise, plus two markers for values that are not
    finite floats: `complexResult` (a negative float raised to a non-integer power is a complex number in
    Python 3), `infinite` (`float("inf")`, flowgo_relative_viscosity_model_bll.py:135). -/
inductive Err where
  | zeroDiv        -- ZeroDivisionError
  | mathDomain     -- ValueError: math domain error
  | complexResult  -- complex number produced by `**`
  | valueError     -- ValueError
  | keyError       -- KeyError
  | nameError      -- NameError
  | typeError      -- TypeError
  | attributeError -- AttributeError
  | runtimeError   -- RuntimeError
  | indexError     -- IndexError
  | infinite       -- float("inf")
  | fileNotFound   -- FileNotFoundError
  | stopIteration  -- StopIteration
  deriving DecidableEq, Repr

/-- Python number operations that are partial or that compare.  Ring operations and literals are the
    standard classes, so that at `ℝ` they are Mathlib's. -/
class PyNum (α : Type) where
  /-- `x <= y` -/
  leB : α → α → Bool
  /-- `x < y` -/
  ltB : α → α → Bool
  /-- `x == y` -/
  eqB : α → α → Bool
  /-- `x / y`, ZeroDivisionError when `y == 0` -/
  div : α → α → Except Err α
  /-- `x ** y` on floats -/
  pow : α → α → Except Err α
  /-- `math.pow(x, y)` -/
  mpow : α → α → Except Err α
  /-- `x ** n` for a literal non-negative integer valued exponent -/
  npow : α → Nat → α
  /-- `math.exp` -/
  exp : α → α
  /-- `math.sin` -/
  sin : α → α
  /-- `math.sqrt` (only ever applied to `math.pi` in the code) -/
  sqrt : α → α
  /-- `math.erf` -/
  erf : α → α
  /-- `math.log10`, ValueError when the argument is not positive -/
  log10 : α → Except Err α
  /-- `math.pi` -/
  pi : α
  /-- `abs` -/
  absv : α → α
  /-- `int(x)`: truncation towards zero -/
  truncInt : α → Int
  /-- `float(n)` for an integer -/
  ofInt : Int → α

export PyNum (leB ltB eqB)

section
variable {α : Type} [PyNum α]

/-- Python's builtin `max(a, b)`: the first argument unless the second is strictly larger. -/
def pyMax (a b : α) : α := if ltB a b then b else a

/-- Python's builtin `min(a, b)`: the first argument unless the second is strictly smaller. -/
def pyMin (a b : α) : α := if ltB b a then b else a

end

/-- Code that mutates objects and may raise: mutations made before an exception survive it. -/
def PyM (σ β : Type) : Type := σ → Except Err β × σ

namespace PyM
variable {σ β γ : Type}

/-- Sequencing: run `m`, stop at its exception (keeping its mutations), otherwise go on. -/
def bind' (m : PyM σ β) (f : β → PyM σ γ) : PyM σ γ := fun s =>
  match m s with
  | (.ok b, s') => f b s'
  | (.error e, s') => (.error e, s')

instance : Monad (PyM σ) where
  pure b := fun s => (.ok b, s)
  bind := bind'

/-- Read the mutable state. -/
def get : PyM σ σ := fun s => (.ok s, s)
/-- Mutate the state. -/
def modify (f : σ → σ) : PyM σ Unit := fun s => (.ok (), f s)
/-- Raise. -/
def raise (e : Err) : PyM σ β := fun s => (.error e, s)
/-- A computation that does not mutate. -/
def lift (x : Except Err β) : PyM σ β := fun s => (x, s)

end PyM
end PyFlowGo
