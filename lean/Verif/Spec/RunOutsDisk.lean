import Verif.Model.CsvText
import Verif.Model.RealNum
import Verif.Spec.RunOutSpec
/-
  The samples of a slope profile up to a distance.
-/
namespace PyFlowGo.Spec

/-- The field of a line, read as a number. -/
def FieldIs (pf : List Char → Option ℝ) (fields : List (List Char)) (i : Nat) (x : ℝ) : Prop := ∃ t, fields[i]? = some t ∧ pf t = some x

/-- `samples` (latitude, longitude, altitude, distance) are those of the lines whose distance is at most `limit`, in order.
    Lines further away need a readable distance only. -/
inductive SamplesUpTo (pf : List Char → Option ℝ) (limit : ℝ) : List (List (List Char)) → List (ℝ × ℝ × ℝ × ℝ) → Prop
  | nil : SamplesUpTo pf limit [] []
  | near {fields rest samples} {lat lon alt dist : ℝ} : dist ≤ limit → FieldIs pf fields 0 lat → FieldIs pf fields 1 lon →
      FieldIs pf fields 2 alt → FieldIs pf fields 3 dist → SamplesUpTo pf limit rest samples →
      SamplesUpTo pf limit (fields :: rest) ((lat, lon, alt, dist) :: samples)
  | far {fields rest samples} {dist : ℝ} : limit < dist → FieldIs pf fields 3 dist → SamplesUpTo pf limit rest samples →
      SamplesUpTo pf limit (fields :: rest) samples

/-- The line of the run-out table for a result file, in terms of the columns found in the file. -/
structure RunOutLine (round : Nat → ℝ → ℝ) (pf : List Char → Option ℝ) (text slopeText : List Char) (line : RunOut ℝ)
    (far second q0 : ℝ) (samples : List (ℝ × ℝ × ℝ × ℝ)) : Prop where
  /-- every line of the file has a number in each of the ten columns -/
  readable : ∀ c ∈ runOutColumns, ∃ xs, textColumn pf text c = .ok xs
  /-- the largest position, and the second one -/
  positions : ∃ xs, textColumn pf text "position" = .ok xs ∧ far ∈ xs ∧ (∀ x ∈ xs, x ≤ far) ∧ xs[1]? = some second
  /-- the effusion rate of the first line -/
  rates : ∃ xs, textColumn pf text "effusion_rate" = .ok xs ∧ xs[0]? = some q0
  depth : ∃ xs, textColumn pf text "channel_depth" = .ok xs ∧ xs[1]? = some line.depth
  width : ∃ xs, textColumn pf text "channel_width" = .ok xs ∧ xs[1]? = some line.widthInit
  /-- the profile up to one step beyond the largest position -/
  profile : SamplesUpTo pf (far + second) (dataLines slopeText) samples
  rate : line.effusionRate = round 0 q0
  start : ∃ s, samples.head? = some s ∧ line.xInit = round 2 s.1 ∧ line.yInit = round 2 s.2.1 ∧ line.altInit = round 1 s.2.2.1
  stop : ∃ s, samples.getLast? = some s ∧ line.x = round 2 s.1 ∧ line.y = round 2 s.2.1 ∧ line.alt = round 1 s.2.2.1 ∧
    line.runOut = round 0 s.2.2.2

end PyFlowGo.Spec
