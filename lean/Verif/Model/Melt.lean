import Verif.Model.State
/-
  pyflowgo/flowgo_melt_viscosity_model_*.py
-/
namespace PyFlowGo
variable {α : Type} [Add α] [Sub α] [Mul α] [OfScientific α] [PyNum α]

/-- The three melt-viscosity classes. -/
inductive MeltModel (α : Type) where
  /-- flowgo_melt_viscosity_model_basic.py:50-62 -/
  | basic (viscosityEruption eruptionT : α)
  /-- flowgo_melt_viscosity_model_shaw.py:51-61 -/
  | shaw (slope : α)
  /-- flowgo_melt_viscosity_model_vft.py:50-69 -/
  | vft (a b c : α)
  deriving Repr

/-- `compute_melt_viscosity(state)`: basic.py:64-71, shaw.py:63-68, vft.py:71-76. -/
def MeltModel.viscosity (m : MeltModel α) (s : FlowState α) : Except Err α :=
  match m with
  | .basic visc eruptionT => .ok (visc * PyNum.exp (0.04 * (eruptionT - s.temp)))
  | .shaw slope => do
    let q ← PyNum.div 10000.0 s.temp
    let e ← PyNum.div (slope * q - 1.5 * slope - 6.4) 2.303
    PyNum.pow 10.0 (e - 1.0)
  | .vft a b c => do
    let q ← PyNum.div b (s.temp - c)
    PyNum.pow 10.0 (a + q)

end PyFlowGo
