import Verif.Spec.Relevant
import Verif.Spec.ColumnSpec
import Verif.Model.Csv
/-
  The same flow in a channel `k` times as wide, fed `k` times as fast: what becomes of the columns of the result file.
-/
namespace PyFlowGo
open Spec

namespace Spec

/-- The columns that are proportional to the width of the channel: the width itself, the effusion rate, and the heat exchanged per metre of
    channel. -/
def extensiveColumns : List String :=
  ["channel_width", "effusion_rate", "heat_budget", "flowgofluxradiationheat", "flowgofluxconductionheat",
   "flowgofluxforcedconvectionheat", "flowgofluxheatlossrain", "flowgofluxviscousheating", "flowgofluxsnyderheat"]

/-- The radiance of a pixel without any lava. -/
noncomputable def snowRadiance : ℝ := 0.8e-6 * 0.1 * planckLaw 258

/-- What becomes of a value in the column `name`: the extensive columns are multiplied by `k`, the radiance above that of a pixel without
    lava is multiplied by `k`, everything else stays. -/
noncomputable def widened (k : ℝ) (name : String) (x : ℝ) : ℝ :=
  if name ∈ extensiveColumns then k * x
  else if name = "spectral_radiance" then snowRadiance + k * (x - snowRadiance)
  else x

/-- Two configurations that differ in the width of the channel and the effusion rate, both `k` times as large in the second; everything
    else a run makes use of is the same (`mass_conservation` left aside). -/
structure SameButWidth (k : ℝ) (env : Env ℝ) (c : Choice) (d d' : Json ℝ) : Prop where
  entry : ∀ e ∈ usedEntries c, e ≠ ("terrain_conditions", "width") → ∀ v, EntryAt d e.1 e.2 v ↔ EntryAt d' e.1 e.2 v
  width : ∀ x, NumberAt env d "terrain_conditions" "width" x ↔ NumberAt env d' "terrain_conditions" "width" (k * x)
  rate : ∀ r, RateIs env d r ↔ RateIs env d' (k * r)
  top : ∀ t ∈ usedTop, t ≠ "effusion_rate_init" → ∀ v, TopEntry d t v ↔ TopEntry d' t v
  idle : ∀ e ∈ idleNumbers c, (∃ x, NumberAt env d e.1 e.2 x) ↔ ∃ x, NumberAt env d' e.1 e.2 x
  table : c.cryst = "melts" → ((∃ v, TopEntry d "melts_look-up_table" v) ↔ ∃ v, TopEntry d' "melts_look-up_table" v)
  profile : c.crust = "field" → ((∃ v, EntryAt d "thermal_parameters" "crust_temperature_file" v) ↔
    ∃ v, EntryAt d' "thermal_parameters" "crust_temperature_file" v)

end Spec

/-- A logged value of the column `name` in the wider channel. -/
noncomputable def Cell.widened (k : ℝ) (name : String) : Cell ℝ → Cell ℝ
  | .num x => .num (Spec.widened k name x)
  | .text x => .text (Spec.widened k name x)

/-- A row of the log in the wider channel. -/
noncomputable def Row.widened (k : ℝ) (r : Row (Cell ℝ)) : Row (Cell ℝ) := r.map fun kv => (kv.1, kv.2.widened k kv.1)

/-- A log in the wider channel. -/
noncomputable def Log.widened (k : ℝ) (l : Log (Cell ℝ)) : Log (Cell ℝ) := List.map (Row.widened k) l

/-- A result table in the wider channel. -/
noncomputable def CsvTable.widened (k : ℝ) (t : CsvTable (Cell ℝ)) : CsvTable (Cell ℝ) :=
  { header := t.header
    rows := t.rows.map fun r => List.zipWith (fun name cell => cell.map (Cell.widened k name)) t.header r }

end PyFlowGo
