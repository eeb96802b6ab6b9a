import Verif.Spec.PlotSpec
/-
  How drawing a result file fails.
-/
namespace PyFlowGo.Spec

/-- The columns every drawn row must have, in the order in which they are read. -/
def readColumns : List String :=
  ["position", "slope", "core_temperature", "mean_velocity", "viscosity", "tho_0", "tho_b", "crystal_fraction",
   "vesicle_fraction", "channel_width", "channel_depth", "effusion_rate", "crust_temperature",
   "effective_cover_fraction", "dphi_dtemp", "dphi_dx", "characteristic_surface_temperature"]

/-- The error of the first of the columns that the row has not got: ValueError (empty cell) if the file has the column,
    KeyError otherwise. -/
def FirstMissing (header : List String) (r : Row (Cell ℝ)) (cols : List String) (e : Err) : Prop :=
  ∃ pre c post, cols = pre ++ c :: post ∧ (∀ k ∈ pre, k ∈ r.keys) ∧ c ∉ r.keys ∧
    (c ∈ header ∧ e = .valueError ∨ c ∉ header ∧ e = .keyError)

/-- How drawing the file of the rows `r0 :: rest` fails; `q` tells whether an earlier file of the same call had a number
    for the Snyder flux. -/
inductive DrawFails (q : Bool) (r0 : Row (Cell ℝ)) (rest : List (Row (Cell ℝ))) : Err → Prop where
  /-- the first row has no effusion rate -/
  | noRate (h : "effusion_rate" ∉ r0.keys) : DrawFails q r0 rest .keyError
  /-- a later row lacks a column -/
  | badRow (h : "effusion_rate" ∈ r0.keys) (pre : List (Row (Cell ℝ))) (r : Row (Cell ℝ)) (post : List (Row (Cell ℝ)))
      (hr : rest = pre ++ r :: post) (hpre : ∀ x ∈ pre, ∀ c ∈ readColumns, c ∈ x.keys) (e : Err)
      (he : FirstMissing r0.keys r readColumns e) : DrawFails q r0 rest e
  /-- the file has one row only -/
  | noRows (h : "effusion_rate" ∈ r0.keys) (hr : rest = []) : DrawFails q r0 rest .valueError
  /-- the file has two rows only -/
  | oneRow (h : "effusion_rate" ∈ r0.keys) (hc : ∀ x ∈ rest, ∀ c ∈ readColumns, c ∈ x.keys) (hr : rest.length = 1) :
      DrawFails q r0 rest .indexError
  /-- there is no Snyder flux, here or in an earlier file -/
  | noSnyder (h : "effusion_rate" ∈ r0.keys) (hc : ∀ x ∈ rest, ∀ c ∈ readColumns, c ∈ x.keys) (hr : 2 ≤ rest.length)
      (hs : ∀ x ∈ rest, "flowgofluxsnyderheat" ∉ x.keys) (hq : q = false) : DrawFails q r0 rest .nameError
  /-- the Snyder flux is missing in some row -/
  | someSnyder (h : "effusion_rate" ∈ r0.keys) (hc : ∀ x ∈ rest, ∀ c ∈ readColumns, c ∈ x.keys) (hr : 2 ≤ rest.length)
      (hs : ∃ x ∈ rest, "flowgofluxsnyderheat" ∉ x.keys)
      (hq : q = true ∨ ∃ x ∈ rest, "flowgofluxsnyderheat" ∈ x.keys) : DrawFails q r0 rest .valueError

end PyFlowGo.Spec
