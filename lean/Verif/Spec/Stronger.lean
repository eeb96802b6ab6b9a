import Verif.Spec.Compare
/-
  Words for comparing two runs of the same lava in channels of which one drives the lava harder: it is deeper, or the ground is steeper.
-/
namespace PyFlowGo.Spec

/-- The channel `A` is at least as deep as `B`, and wherever the stress at the base of the lava in `B` is positive, that in `A` is not smaller
    (for lava at a position, temperature and crystal fraction in `R`). -/
structure DrivesHarder (l : Lava ℝ) (A B : Terrain ℝ) (R : ℝ → ℝ → ℝ → Prop) : Prop where
  deep : 0 < B.depth
  depth : B.depth ≤ A.depth
  stress : ∀ s b, R s.pos s.temp s.crystal → l.basalStress B s = .ok b → 0 < b → ∃ a, l.basalStress A s = .ok a ∧ b ≤ a

/-- Compare two channels that carry one cubic metre of the same lava per second, at its velocity in `A` and in `B`: where the lava is not slower
    in `A`, the channel `A` does not lose more heat per metre through the flux `f`. -/
def LosesNoMore (m : Models ℝ) (A B : Terrain ℝ) (R : ℝ → ℝ → ℝ → Prop) (f : Flux ℝ) : Prop :=
  ∀ s va xa vb xb q, R s.pos s.temp s.crystal → m.lava.meanVelocity A s = .ok (va, xa) → m.lava.meanVelocity B s = .ok (vb, xb) →
    0 < vb → vb ≤ va → FluxIs m (1 / (vb * B.depth)) B.depth B s f q →
    ∃ q', FluxIs m (1 / (va * A.depth)) A.depth A s f q' ∧ q' ≤ q

/-- The crust covers a fraction of the surface that shrinks (or stays) as the lava moves faster: the exponents are not positive and
    the fractions at rest are between 0 and 1. -/
def CoverShrinks : CoverModel ℝ → Prop
  | .basic a fc => a ≤ 0 ∧ 0 ≤ fc ∧ fc ≤ 1
  | .bimodal _ a1 a2 f1 f2 => (a1 ≤ 0 ∧ 0 ≤ f1 ∧ f1 ≤ 1) ∧ (a2 ≤ 0 ∧ 0 ≤ f2 ∧ f2 ≤ 1)

/-- The crust is not hotter than the molten surface, and neither is colder than the air; the molten surface is not colder than the crust. -/
def CrustBetween (m : Models ℝ) (R : ℝ → ℝ → ℝ → Prop) : Prop :=
  ∀ s Tc, R s.pos s.temp s.crystal → m.crust.temperature s = .ok Tc → 0 < m.air.temp ∧ m.air.temp ≤ Tc ∧ Tc ≤ coreTemperature m.lava s

/-- The same lava at the same place and time. -/
def SameVent (s s' : FlowState ℝ) : Prop := s'.pos = s.pos ∧ s'.temp = s.temp ∧ s'.crystal = s.crystal

end PyFlowGo.Spec

namespace PyFlowGo.Spec

/-- Compare a hotter lava (in the region `R`) and a colder and not faster one (in `R'`) at the same place, both carrying one cubic metre per second:
    the flux `f` takes from the hotter at most `k` watt per square metre and kelvin more than from the colder. -/
def PerKelvin (m : Models ℝ) (T : Terrain ℝ) (R R' : ℝ → ℝ → ℝ → Prop) (f : Flux ℝ) (k : ℝ) : Prop :=
  ∀ s s' v x v' x' q q', R s.pos s.temp s.crystal → R' s'.pos s'.temp s'.crystal → s.pos = s'.pos → s'.temp ≤ s.temp →
    m.lava.meanVelocity T s = .ok (v, x) → m.lava.meanVelocity T s' = .ok (v', x') → 0 < v' → v' ≤ v →
    FluxIs m (1 / (v * T.depth)) T.depth T s f q → FluxIs m (1 / (v' * T.depth)) T.depth T s' f q' →
    q - q' ≤ k * (s.temp - s'.temp) / (v * T.depth)

/-- The crust temperature at a place does not depend on the time at which the lava comes by, nor on its state. -/
def CrustSteady (m : Models ℝ) : Prop := ∀ s s' : FlowState ℝ, s.pos = s'.pos → m.crust.temperature s = m.crust.temperature s'

/-- Hotter lava with fewer crystals at the same place is not more viscous. -/
def ThinnerWhenHotter (l : Lava ℝ) (R R' : ℝ → ℝ → ℝ → Prop) : Prop :=
  ∀ s s' mu mu', R s.pos s.temp s.crystal → R' s'.pos s'.temp s'.crystal → s.pos = s'.pos → s'.temp ≤ s.temp → s.crystal ≤ s'.crystal →
    l.bulkViscosity s = .ok mu → l.bulkViscosity s' = .ok mu' → mu ≤ mu'

end PyFlowGo.Spec
