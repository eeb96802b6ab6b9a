import Verif.Model.Num
/-
  pyflowgo/flowgo_state.py
-/
namespace PyFlowGo

/-- flowgo_state.py:40-48, the mutable state of a lava parcel.  `_current_slope` (line 47) is never
    read or written elsewhere and is omitted. -/
structure FlowState (α : Type) where
  /-- `_crystal_fraction` -/
  crystal : α
  /-- `_core_temperature` [K] -/
  temp : α
  /-- `_current_position` [m] -/
  pos : α
  /-- `_current_time` [s] -/
  time : α
  /-- `_strain_rate` [1/s] -/
  strain : α
  deriving Repr

variable {α : Type} [Add α] [OfScientific α]

/-- flowgo_state.py:40-48, the defaults of `FlowGoState()`. -/
def FlowState.default : FlowState α :=
  { crystal := 0.15, temp := 1137.0 + 273.15, pos := 0.0, time := 0.0, strain := 0.0 }

end PyFlowGo
