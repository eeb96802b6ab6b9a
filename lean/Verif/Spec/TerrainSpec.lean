import Mathlib.Analysis.SpecialFunctions.Trigonometric.Basic
import Verif.Model.Terrain
/-
  Specification of the slope profile: which samples are used, what the running mean is, and what
  linear interpolation through a table means.  Independent of the model's algorithms.
-/
namespace PyFlowGo

/-- Indices of the samples averaged at index `i` with half width `h` in a list of length `len`:
    from `max(0, i-h)` (truncated subtraction) to `min(len-1, i+h)`. -/
def meanWindow (len i h : ℕ) : Finset ℕ := Finset.Icc (i - h) (min (len - 1) (i + h))

/-- The centred mean at index `i` with half width `h`, the window being cut at both ends. -/
noncomputable def centredMean (l : List ℝ) (h i : ℕ) : ℝ :=
  (∑ j ∈ meanWindow l.length i h, l.getD j 0) / ((meanWindow l.length i h).card : ℝ)

/-- `a` and `b` are consecutive entries of the table. -/
def Consecutive (table : List (ℝ × ℝ)) (p q : ℝ × ℝ) : Prop := ∃ pre post, table = pre ++ p :: q :: post

/-- The value at `x` of the line through two points. -/
noncomputable def lineThrough (p q : ℝ × ℝ) (x : ℝ) : ℝ := p.2 + (x - p.1) / (q.1 - p.1) * (q.2 - p.2)

/-- Abscissae strictly increasing. -/
def Ascending (table : List (ℝ × ℝ)) : Prop := table.Pairwise (fun p q => p.1 < q.1)

/-- Linear interpolation in a table: `y` is the value at `x` of the line through the two consecutive
    entries surrounding `x`; before the first (after the last) entry it is the first (last) line. -/
def Interpolates (table : List (ℝ × ℝ)) (x y : ℝ) : Prop :=
  ∃ pre p q post, table = pre ++ p :: q :: post ∧ (pre = [] ∨ p.1 ≤ x) ∧ (post = [] ∨ x ≤ q.1) ∧
    y = lineThrough p q x

/-- The samples of a slope file that count: slope above 0.1 degree, in file order. -/
noncomputable def usableRows (rows : List (SlopeLine ℝ)) : List (SlopeLine ℝ) :=
  open Classical in rows.filter (fun r => (0.1 : ℝ) < r.slopeDeg)

/-- Degrees to radians. -/
noncomputable def degToRad (d : ℝ) : ℝ := d * Real.pi / 180

/-- The profile without smoothing: distance against slope in radians. -/
noncomputable def rawProfile (rows : List (SlopeLine ℝ)) : List (ℝ × ℝ) :=
  (usableRows rows).map (fun r => (r.dist, degToRad r.slopeDeg))

/-- The profile smoothed with half width `h`: same distances, centred means of the slopes. -/
noncomputable def smoothProfile (rows : List (SlopeLine ℝ)) (h : ℕ) : List (ℝ × ℝ) :=
  let raw := rawProfile rows
  (List.range raw.length).map (fun i => ((raw.getD i (0, 0)).1, centredMean (raw.map Prod.snd) h i))

/-- The profile the code must build: raw, or smoothed with half width `⌊n/2⌋`. -/
noncomputable def profileFor (t : Terrain ℝ) (rows : List (SlopeLine ℝ)) : List (ℝ × ℝ) :=
  if t.smoothing then smoothProfile rows ⌊t.smoothingPoints / 2⌋₊ else rawProfile rows

/-- The table in kelvin: the file gives degrees Celsius. -/
noncomputable def kelvinTable (rows : List (ℝ × ℝ)) : List (ℝ × ℝ) := rows.map (fun r => (r.1 + 273.15, r.2))

/-- Fractions do not increase with temperature. -/
def NonIncreasing (table : List (ℝ × ℝ)) : Prop := table.Pairwise (fun p q => q.2 ≤ p.2)

end PyFlowGo
