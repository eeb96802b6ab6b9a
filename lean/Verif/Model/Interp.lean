import Verif.Model.Num
/-
  scipy.interpolate.InterpolatedUnivariateSpline(x, y, k=1), as used by
  flowgo_terrain_condition.py:121, flowgo_crust_temperature_model_field.py:81 and
  flowgo_crystallization_rate_model_melts.py:82.  scipy itself is not part of the repository: this is
  its documented contract for k=1 (piecewise linear through the points, end segments extended), see
  the trusted base in DESIGN.md.
-/
namespace PyFlowGo
variable {α : Type} [Add α] [Sub α] [Mul α] [PyNum α]

/-- A linear spline: its knots `(x, y)`. -/
structure Spline (α : Type) where
  knots : List (α × α)
  deriving Repr

/-- scipy rejects abscissae that are not strictly increasing. -/
def strictlyIncreasing : List (α × α) → Bool
  | [] => true
  | [_] => true
  | p :: q :: rest => ltB p.1 q.1 && strictlyIncreasing (q :: rest)

/-- Construction: `ValueError` unless there are at least two points with strictly increasing x. -/
def Spline.make (xs ys : List α) : Except Err (Spline α) :=
  let kn := xs.zip ys
  if xs.length == ys.length && 2 ≤ kn.length && strictlyIncreasing kn then .ok ⟨kn⟩
  else .error .valueError

/-- The line through two knots. -/
def segment (p q : α × α) (x : α) : Except Err α := do
  let t ← PyNum.div (x - p.1) (q.1 - p.1)
  return p.2 + t * (q.2 - p.2)

/-- Evaluation: the segment containing `x`; the first (last) segment before (after) the knots. -/
def evalKnots (x : α) : List (α × α) → Except Err α
  | [] => .error .valueError
  | [_] => .error .valueError
  | [p, q] => segment p q x
  | p :: q :: r :: rest => if leB x q.1 then segment p q x else evalKnots x (q :: r :: rest)

/-- `spline(x)` -/
def Spline.eval (s : Spline α) (x : α) : Except Err α := evalKnots x s.knots

end PyFlowGo
