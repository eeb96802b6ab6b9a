import Verif.Spec.Relevant
import Mathlib.Data.Real.Basic
import Verif.Model.RealNum
import Verif.Model.Csv
/-
  The same eruption with positions measured from another origin: every position in the configuration, in the slope file and in the crust
  profile grows by `δ`.
-/
namespace PyFlowGo
open Spec

/-- A logged position read in the coordinate moved by `δ`. -/
def Cell.plus (δ : ℝ) : Cell ℝ → Cell ℝ
  | .num x => .num (x + δ)
  | .text x => .text (x + δ)

/-- A row of the log with its position in the moved coordinate; nothing else changes. -/
def Row.moved (δ : ℝ) (r : Row (Cell ℝ)) : Row (Cell ℝ) := r.map fun kv => if kv.1 = "position" then (kv.1, kv.2.plus δ) else kv

/-- A log with its positions in the moved coordinate. -/
def Log.moved (δ : ℝ) (l : Log (Cell ℝ)) : Log (Cell ℝ) := List.map (Row.moved δ) l

/-- A result table with its column `position` in the moved coordinate; nothing else changes. -/
def CsvTable.moved (δ : ℝ) (t : CsvTable (Cell ℝ)) : CsvTable (Cell ℝ) :=
  { header := t.header
    rows := t.rows.map fun r => List.zipWith (fun name cell => if name = "position" then cell.map (Cell.plus δ) else cell) t.header r }

/-- A line of a slope file with its distance in the moved coordinate. -/
def SlopeLine.moved (δ : ℝ) (r : SlopeLine ℝ) : SlopeLine ℝ := { r with dist := r.dist + δ }

/-- The same directory with the distances in the slope files and in the crust profiles in the moved coordinate. -/
def Env.moved (δ : ℝ) (env : Env ℝ) : Env ℝ :=
  { env with slopeFile := fun path => (env.slopeFile path).map fun rows => rows.map (SlopeLine.moved δ)
             crustFile := fun path => (env.crustFile path).map fun rows => rows.map fun r => (r.1 + δ, r.2) }

namespace Spec

/-- The entries that hold positions. -/
def originEntries : List Req :=
  [("terrain_conditions", "max_channel_length"), ("lava_state", "position"), ("lava_state", "critical_distance")]

/-- Two configurations that differ in the origin of the position coordinate: the three positions grow by `δ`, everything else a run makes
    use of is the same (`mass_conservation` left aside). -/
structure SameButOrigin (δ : ℝ) (env : Env ℝ) (c : Choice) (d d' : Json ℝ) : Prop where
  entry : ∀ e ∈ usedEntries c, e ∉ originEntries → ∀ v, EntryAt d e.1 e.2 v ↔ EntryAt d' e.1 e.2 v
  moved : ∀ e ∈ usedEntries c, e ∈ originEntries → ∀ x, NumberAt env d e.1 e.2 x ↔ NumberAt env d' e.1 e.2 (x + δ)
  top : ∀ k ∈ usedTop, ∀ v, TopEntry d k v ↔ TopEntry d' k v
  idle : ∀ e ∈ idleNumbers c, (∃ x, NumberAt env d e.1 e.2 x) ↔ ∃ x, NumberAt env d' e.1 e.2 x
  table : c.cryst = "melts" → ((∃ v, TopEntry d "melts_look-up_table" v) ↔ ∃ v, TopEntry d' "melts_look-up_table" v)
  profile : c.crust = "field" → ((∃ v, EntryAt d "thermal_parameters" "crust_temperature_file" v) ↔
    ∃ v, EntryAt d' "thermal_parameters" "crust_temperature_file" v)

end Spec
end PyFlowGo
