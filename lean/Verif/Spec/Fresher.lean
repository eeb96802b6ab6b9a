import Verif.Spec.Stronger
/-
  Words for comparing two lavas that leave the same vent, one hotter or with fewer crystals than the other.
-/
namespace PyFlowGo.Spec

/-- Crystals grow at `r` per kelvin. The lava `s` is at the same place as `s'`, not colder, and `s'` has at least the crystals that `s` would have
    after cooling to the temperature of `s'`. -/
structure Fresher (r : ℝ) (s s' : FlowState ℝ) : Prop where
  place : s'.pos = s.pos
  hotter : s'.temp ≤ s.temp
  crystals : s.crystal + r * (s.temp - s'.temp) ≤ s'.crystal

end PyFlowGo.Spec
