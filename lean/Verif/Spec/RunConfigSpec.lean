import Verif.Spec.FactorySpec
import Verif.Model.Run
/-
  What `run` takes from a configuration, apart from the models; how `mass_conservation` is meant.
-/
namespace PyFlowGo.Spec
variable {α : Type}

/-- The code points that Python counts as white space: tab to carriage return, the four separators and the space, next line, no-break space, and the typographic spaces of
    Unicode. -/
def blankCodes : List Nat :=
  [9, 10, 11, 12, 13, 28, 29, 30, 31, 32, 133, 160, 5760, 8192, 8193, 8194, 8195, 8196, 8197, 8198, 8199, 8200, 8201, 8202, 8232, 8233, 8239, 8287, 12288]

/-- Blanks at both ends do not matter and case does not matter: the text says "true". -/
def SaysTrue (s : String) : Prop :=
  ∃ before word after, s.toList = before ++ word ++ after ∧ (∀ c ∈ before, c.toNat ∈ blankCodes) ∧
    (∀ c ∈ after, c.toNat ∈ blankCodes) ∧ word.map Char.toLower = ['t', 'r', 'u', 'e']

/-- A JSON value that switches mass conservation on. -/
def SwitchesOn [OfScientific α] (v : Json α) : Prop :=
  match v with
  | .null => False
  | .bool b => b = true
  | .int n => n ≠ 0
  | .num x => x ≠ 0.0
  | .str s => SaysTrue s
  | .arr l => l ≠ []
  | .obj l => l ≠ []

/-- The terrain before the slope file is read: every number from its entry. -/
def TerrainFrom [OfScientific α] [PyNum α] [Neg α] (env : Env α) (data : Json α) (t : Terrain α) : Prop :=
  (∃ v, TopEntry data "effusion_rate_init" v ∧ v.toFloat env = .ok t.effusionRateInit) ∧
  NumberAt env data "terrain_conditions" "depth" t.depth ∧
  NumberAt env data "terrain_conditions" "width" t.width ∧
  NumberAt env data "terrain_conditions" "gravity" t.gravity ∧
  NumberAt env data "terrain_conditions" "max_channel_length" t.maxLength ∧
  (∃ v, EntryAt data "terrain_conditions" "slope_smoothing_active" v ∧ (t.smoothing = true ↔ v = .bool true)) ∧
  (t.smoothing = true → NumberAt env data "terrain_conditions" "slope_smoothing_number_of_points" t.smoothingPoints) ∧
  (t.smoothing = false → t.smoothingPoints = -1.0) ∧ t.spline = none

/-- What `run` reads itself. -/
def RunConfigFrom [OfScientific α] [PyNum α] (env : Env α) (data : Json α) (c : RunConfig α) : Prop :=
  TopEntry data "effusion_rate_init" c.rate ∧ TopEntry data "lava_name" c.lavaName ∧
  TopEntry data "slope_file" c.slopeFile ∧ (∃ v, TopEntry data "step_size" v ∧ v.toFloat env = .ok c.stepSize) ∧
  ∃ inner, TopEntry data "terrain_conditions" (.obj inner) ∧
    c.massConservation = massConservationOf ((lookup inner "mass_conservation").getD (.bool false))

end PyFlowGo.Spec
