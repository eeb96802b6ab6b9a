import Verif.Model.RelVisc
/-
  pyflowgo/flowgo_relative_viscosity_model_costa.py ("FOR NOW NOT IN USE": the factory never builds it).
-/
namespace PyFlowGo
variable {α : Type} [Add α] [Sub α] [Mul α] [Neg α] [OfScientific α] [PyNum α]

/-- flowgo_relative_viscosity_model_costa.py:52-114 `compute_relative_viscosity`: the value returned, `none` for the
    `None` returned when the `strain_rate` parameter is neither 1.0 nor 0.0001. -/
def costaSingle (strainParam : α) (s : FlowState α) : Except Err (Option α) :=
  if eqB strainParam 1.0 then do
    let v ← costaLaw 11.4 1.6 0.67 0.01 s.crystal
    pure (some v)
  else if eqB strainParam 0.0001 then do
    let v ← costaLaw 11.48 1.52 0.62 0.005 s.crystal
    pure (some v)
  else .ok none

/-- flowgo_relative_viscosity_model_costa.py:116-117 `is_notcompatible`. -/
def costaSingleNotCompatible (_strainParam : α) (_s : FlowState α) : Except Err Bool := .ok false

end PyFlowGo
