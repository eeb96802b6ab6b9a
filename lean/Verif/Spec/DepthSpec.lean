import Verif.Model.Integrator
import Verif.Model.RealNum
/-
  Vocabulary for the initial depth search.
-/
namespace PyFlowGo.Spec

/-- The k-th depth tried by the search: 1 cm, then steps of 1 mm. -/
noncomputable def gridDepth (k : Nat) : ℝ := 0.01 + k * 0.001

/-- The volume flux through a channel of depth `d` (the rest of the terrain and the state given) is `q`:
    velocity * configured width * depth. -/
def VolumeFlux (l : Lava ℝ) (t : Terrain ℝ) (s : FlowState ℝ) (d q : ℝ) : Prop :=
  ∃ v x, l.meanVelocity { t with depth := d } s = .ok (v, x) ∧ q = v * t.width * d

end PyFlowGo.Spec
