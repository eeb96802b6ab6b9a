import Verif.Model.State
import Verif.Model.Interp
/-
  pyflowgo/flowgo_crust_temperature_model_*.py
-/
namespace PyFlowGo
variable {α : Type} [Add α] [Sub α] [Mul α] [Neg α] [OfScientific α] [PyNum α]

/-- The crust-temperature classes. The `_crust_temperature` field that the Hon and HR2001 classes
    overwrite on every call (hon.py:82, hr2001.py:70) is never read again and is omitted. -/
inductive CrustModel (α : Type) where
  /-- flowgo_crust_temperature_model_constant.py:40-48 -/
  | constant (t : α)
  /-- flowgo_crust_temperature_model_hon.py:65-74 -/
  | hon
  /-- flowgo_crust_temperature_model_bimodal.py:68-98 (`_crust_temperature_1` is never used) -/
  | honBimodal (criticalDistance t2 : α)
  /-- flowgo_crust_temperature_model_field.py:50-81 -/
  | field (t : α) (spline : Option (Spline α))
  /-- flowgo_crust_temperature_model_hr2001.py:51-60 (not reachable through the factory) -/
  | hr2001
  deriving Repr

/-- The Hon et al. (1994) law `-140*log10(time/3600) + 303 + 273.15`, hon.py:82 and bimodal.py:107. -/
def honTemperature (time : α) : Except Err α := do
  let h ← PyNum.div time 3600.0
  let lg ← PyNum.log10 h
  return -140.0 * lg + 303.0 + 273.15

/-- `compute_crust_temperature(state)`: constant.py:50-51, hon.py:76-86, bimodal.py:100-109,
    field.py:83-93, hr2001.py:62-75. -/
def CrustModel.temperature (m : CrustModel α) (s : FlowState α) : Except Err α :=
  match m with
  | .constant t => .ok t
  | .hon => honTemperature s.time
  | .honBimodal d t2 => if leB s.pos d then honTemperature s.time else .ok t2
  | .field t none => .ok t
  | .field _ (some sp) => sp.eval s.pos
  | .hr2001 => .ok (s.temp - 712.0)

/-- flowgo_crust_temperature_model_field.py:63-81 `read_crust_temperature_from_file` from the parsed
    rows (distance, temperature in °C). -/
def readCrustField (rows : List (α × α)) : Except Err (Spline α) :=
  Spline.make (rows.map (·.1)) (rows.map (fun r => r.2 + 273.15))

end PyFlowGo
