import Verif.Spec.TerrainSpec
import Verif.Spec.ConfigSpec
import Verif.Model.RealNum
import Mathlib.Data.List.Forall2
/-
  Specification for C116: two slope profiles that are the same up to some distance.
-/
namespace PyFlowGo.Spec

/-- The same distance and the same slope; latitude, longitude and elevation may differ. -/
def SameSample (r r' : SlopeLine ℝ) : Prop := r.dist = r'.dist ∧ r.slopeDeg = r'.slopeDeg

/-- The two profiles begin with the same samples: with at least two downhill samples, one of them at `X` or beyond, and with `m` more
    downhill samples behind these. What comes then is arbitrary. -/
def SameUpTo (X : ℝ) (m : ℕ) (rows rows' : List (SlopeLine ℝ)) : Prop :=
  ∃ a b rest a' b' rest', rows = a ++ b ++ rest ∧ rows' = a' ++ b' ++ rest' ∧
    List.Forall₂ SameSample a a' ∧ List.Forall₂ SameSample b b' ∧
    2 ≤ (usableRows a).length ∧ (∃ r ∈ usableRows a, X ≤ r.dist) ∧ m ≤ (usableRows b).length

/-- `m` samples are enough for the running mean to look ahead (none without smoothing, half the configured number with it). -/
def LooksAhead (env : Env ℝ) (data : Json ℝ) (m : ℕ) : Prop :=
  EntryAt data "terrain_conditions" "slope_smoothing_active" (.bool true) →
    ∀ n, NumberAt env data "terrain_conditions" "slope_smoothing_number_of_points" n → n < 2 * (m + 1)

/-- A point on the line between two samples. -/
def Between (p s q : SlopeLine ℝ) : Prop :=
  p.dist < s.dist ∧ s.dist < q.dist ∧ s.slopeDeg = p.slopeDeg + (s.dist - p.dist) / (q.dist - p.dist) * (q.slopeDeg - p.slopeDeg)

end PyFlowGo.Spec
