import Verif.Model.World
import Verif.Model.RealNum
/-
  Words for C126: two vents, of which the second lets the lava flow more easily.
-/
namespace PyFlowGo.Spec

/-- At the second vent, at the same place, the lava is hotter and less crystallised (or the same), the channel is wider, gravity stronger and the ground steeper
    (or the same), and there is less lava to carry (or the same amount). -/
structure KinderVent (w w' : World ℝ) : Prop where
  place : w'.st.pos = w.st.pos
  hotter : w.st.temp ≤ w'.st.temp
  fewer : w'.st.crystal ≤ w.st.crystal
  wider : w.terrain.width ≤ w'.terrain.width
  heavier : 0 < w.terrain.gravity ∧ w.terrain.gravity ≤ w'.terrain.gravity
  steeper : ∀ y y', w.terrain.slope w.st.pos = .ok y → w'.terrain.slope w.st.pos = .ok y' → 0 < Real.sin y ∧ Real.sin y ≤ Real.sin y'
  supply : w'.terrain.effusionRateInit ≤ w.terrain.effusionRateInit

/-- The same, by the numbers the depth search works with: the second lava has a yield strength and a viscosity that are not higher, and in a channel of any given depth
    a basal stress that is not lower; its channel is not narrower and its effusion rate not larger. -/
structure EasierVent (l l' : Lava ℝ) (w w' : World ℝ) : Prop where
  yields : ∀ t t', l.yieldStrength w.st = .ok t → l'.yieldStrength w'.st = .ok t' → 0 ≤ t' ∧ t' ≤ t
  viscosity : ∀ m m', l.bulkViscosity w.st = .ok m → l'.bulkViscosity w'.st = .ok m' → 0 < m' ∧ m' ≤ m
  stress : ∀ d b b', 0 < d → l.basalStress { w.terrain with depth := d } w.st = .ok b → l'.basalStress { w'.terrain with depth := d } w'.st = .ok b' →
    0 < b ∧ b ≤ b'
  width : 0 ≤ w.terrain.width ∧ w.terrain.width ≤ w'.terrain.width
  supply : w'.terrain.effusionRateInit ≤ w.terrain.effusionRateInit

end PyFlowGo.Spec
