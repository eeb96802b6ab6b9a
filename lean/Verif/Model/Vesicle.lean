import Verif.Model.State
/-
  pyflowgo/flowgo_vesicle_fraction_model_*.py
-/
namespace PyFlowGo
variable {α : Type} [Add α] [Sub α] [Mul α] [OfScientific α] [PyNum α]

/-- The five vesicle-fraction classes with their parameters. -/
inductive VesicleModel (α : Type) where
  /-- flowgo_vesicle_fraction_model_constant.py:24-27 -/
  | constant (vesicleFraction : α)
  /-- flowgo_vesicle_fraction_model_bimodal.py:26-32 -/
  | bimodal (criticalDistance v1 v2 : α)
  /-- flowgo_vesicle_fraction_model_variable.py:45-48 -/
  | variable (vesicleFraction coef : α)
  /-- flowgo_vesicle_fraction_model_variable_bimodal.py:46-51 -/
  | variableBimodal (criticalDistance vesicleFraction coef : α)
  /-- flowgo_vesicle_fraction_model_poly.py:53-56 -/
  | poly (vesicleFraction polyA polyB : α)
  deriving Repr

/-- `computes_vesicle_fraction(state)`:
    constant.py:35-37, bimodal.py:52-58, variable.py:61-71, variable_bimodal.py:74-83,
    poly.py:67-78 (`math.pow(x, 2)` is total, written `npow`). -/
def VesicleModel.fraction (m : VesicleModel α) (s : FlowState α) : α :=
  match m with
  | .constant v => v
  | .bimodal d v1 v2 => if leB s.pos d then v1 else v2
  | .variable v c =>
    let f := v - c * s.pos
    if leB f 0.0 then 0.0 else f
  | .variableBimodal d v c => if leB s.pos d then v - c * s.pos else v - c * d
  | .poly v a b =>
    let f := v + b * (s.pos + 1.0) + a * PyNum.npow s.pos 2
    if leB f 0.0 then 0.0 else f

/-- flowgo_vesicle_fraction_model_constant.py:24-27, the default object used when a class is built
    without a vesicle model. -/
def VesicleModel.dflt : VesicleModel α := .constant 0.1

end PyFlowGo
