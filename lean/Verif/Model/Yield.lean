import Verif.Model.Vesicle
/-
  pyflowgo/flowgo_yield_strength_model_*.py: `compute_yield_strength`.
  `compute_basal_shear_stress` and `yield_strength_notcompatible`, textually identical in the five
  classes, need the lava density and are in `Verif/Model/Lava.lean`.
-/
namespace PyFlowGo
variable {α : Type} [Add α] [Sub α] [Mul α] [OfScientific α] [PyNum α]

/-- The five yield-strength classes. The `eruption_temperature` argument of `compute_yield_strength`
    is ignored by all of them; Basic uses its own `_eruption_temperature`. -/
inductive YieldModel (α : Type) where
  /-- flowgo_yield_strength_model_basic.py:28-36 -/
  | basic (eruptionT : α)
  /-- flowgo_yield_strength_model_dragoni.py:28-38 -/
  | dragoni (liquidusT : α)
  /-- flowgo_yield_strength_model_dragoni_alone.py:49-59 -/
  | dragoniAlone (liquidusT : α)
  /-- flowgo_yield_strength_model_ryerson.py:54-62 -/
  | ryerson
  /-- flowgo_yield_strength_model_bll.py:59-71 -/
  | bll (ves : VesicleModel α)
  deriving Repr

/-- The Dragoni term `b * exp(c*(Tref - T) - 1.)` with b = 0.01, c = 0.08: basic.py:46,
    dragoni.py:49, dragoni_alone.py:69. (The `- 1.` is inside the exponential in the code.) -/
def dragoniTerm (tref temp : α) : α := 0.01 * PyNum.exp (0.08 * (tref - temp) - 1.0)

/-- The Ryerson term `6500 * phi ** 2.85`: basic.py:46, dragoni.py:49, ryerson.py:67. -/
def ryersonTerm (phi : α) : Except Err α := do
  let p ← PyNum.pow phi 2.85
  return 6500.0 * p

/-- `compute_yield_strength(state, eruption_temperature)`: basic.py:38-47, dragoni.py:40-50,
    dragoni_alone.py:61-70, ryerson.py:64-68, bll.py:73-84. -/
def YieldModel.strength (m : YieldModel α) (s : FlowState α) : Except Err α :=
  match m with
  | .basic te => do
    let r ← ryersonTerm s.crystal
    return dragoniTerm te s.temp + r
  | .dragoni tl => do
    let r ← ryersonTerm s.crystal
    return dragoniTerm tl s.temp + r
  | .dragoniAlone tl => .ok (dragoniTerm tl s.temp)
  | .ryerson => ryersonTerm s.crystal
  | .bll ves => do
    let vf := ves.fraction s
    let a ← PyNum.mpow 10.0 (80.0 * (s.crystal - 0.35))
    let b ← PyNum.mpow 10.0 (1.98 * (s.crystal + vf - 0.35))
    return a + b

end PyFlowGo
