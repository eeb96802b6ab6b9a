import Verif.Model.State
import Verif.Model.Interp
/-
  pyflowgo/flowgo_crystallization_rate_model_*.py
-/
namespace PyFlowGo
variable {α : Type} [Add α] [Sub α] [Mul α] [Neg α] [OfScientific α] [PyNum α]

/-- The four crystallisation-rate classes with the parameters their methods read. -/
inductive CrystModel (α : Type) where
  /-- flowgo_crystallization_rate_model_basic.py:45-60 -/
  | basic (crystalFraction crystalsGrown solidT eruptionT : α)
  /-- flowgo_crystallization_rate_model_bimodal.py:47-80 -/
  | bimodal (crystalFraction criticalDistance rate1 rate2 solidT : α)
  /-- flowgo_crystallization_rate_model_bimodal_f_temp.py:41-75 -/
  | bimodalFTemp (crystalFraction criticalTemperature rate1 rate2 solidT : α)
  /-- flowgo_crystallization_rate_model_melts.py:46-82; the spline is `None` until
      `read_crystal_from_melts` is called -/
  | melts (crystalFraction solidT : α) (spline : Option (Spline α))
  deriving Repr

/-- `get_crystal_fraction(temperature)`: basic.py:62-63, bimodal.py:82-83, bimodal_f_temp.py:77-78,
    melts.py:84-88. -/
def CrystModel.crystalFraction (m : CrystModel α) (temperature : α) : Except Err α :=
  match m with
  | .basic f _ _ _ => .ok f
  | .bimodal f _ _ _ _ => .ok f
  | .bimodalFTemp f _ _ _ _ => .ok f
  | .melts f _ none => .ok f
  | .melts _ _ (some s) => s.eval temperature

/-- `compute_crystallization_rate(state)`: basic.py:65-68, bimodal.py:85-100,
    bimodal_f_temp.py:80-90, melts.py:90-95. -/
def CrystModel.rate (m : CrystModel α) (s : FlowState α) : Except Err α :=
  match m with
  | .basic _ grown solidT eruptionT => PyNum.div grown (eruptionT - solidT)
  | .bimodal _ d r1 r2 _ => .ok (if leB s.pos d then r1 else r2)
  | .bimodalFTemp _ tc r1 r2 _ => .ok (if leB tc s.temp then r1 else r2)
  | .melts f solidT sp => do
    let plus ← (CrystModel.melts f solidT sp).crystalFraction (s.temp + 1.0)
    let minus ← (CrystModel.melts f solidT sp).crystalFraction (s.temp - 1.0)
    PyNum.div (-(plus - minus)) 2.0

/-- `get_solid_temperature()`: basic.py:70-71, bimodal.py:102-103, bimodal_f_temp.py:93-94,
    melts.py:97-98. -/
def CrystModel.solidTemperature (m : CrystModel α) : α :=
  match m with
  | .basic _ _ t _ => t
  | .bimodal _ _ _ _ t => t
  | .bimodalFTemp _ _ _ _ t => t
  | .melts _ t _ => t

/-- flowgo_crystallization_rate_model_melts.py:70-82 `read_crystal_from_melts` from the parsed rows
    (temperature in °C, fraction). -/
def readMelts (rows : List (α × α)) : Except Err (Spline α) :=
  Spline.make (rows.map (fun r => r.1 + 273.15)) (rows.map (·.2))

end PyFlowGo
