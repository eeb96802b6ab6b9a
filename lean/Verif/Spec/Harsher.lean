import Verif.Spec.Everyday
import Mathlib.Data.List.Forall2
/-
  Words for comparing two runs of the same lava in the same channel, of which one loses more heat to its surroundings.
-/
namespace PyFlowGo.Spec

/-- The same step, the same switch for mass conservation, the same lava and the same crystallisation; air, crust, cover and heat fluxes may differ. -/
structure EqualLava (g g' : Integrator ℝ) : Prop where
  step : g'.dx = g.dx
  switch : g'.massConservation = g.massConservation
  lava : g'.models.lava = g.models.lava
  cryst : g'.models.cryst = g.models.cryst

/-- From a lava (in `R`) that moves in the channel `T`, the heat fluxes of `m'` together take at least as much heat as those of `m`, whatever the width. -/
def LosesMore (m m' : Models ℝ) (T : Terrain ℝ) (R : ℝ → ℝ → ℝ → Prop) : Prop :=
  ∀ width s qs', 0 < width → R s.pos s.temp s.crystal → (∀ v x, m.lava.meanVelocity T s = .ok (v, x) → 0 < v) →
    List.Forall₂ (FluxIs m' width T.depth T s) m'.fluxes qs' →
    ∃ qs, List.Forall₂ (FluxIs m width T.depth T s) m.fluxes qs ∧ qs.sum ≤ qs'.sum

/-- The second flux is of the same kind as the first and takes more by its parameters: more rain, a colder or nearer base, a larger emissivity. (With two
    emissivities the crust must be the same.) -/
def HarsherFlux (m m' : Models ℝ) : Flux ℝ → Flux ℝ → Prop
  | .rain a b c, .rain a' b' c' => a * b * c ≤ a' * b' * c'
  | .conduction base pct, .conduction base' pct' => base' ≤ base ∧ pct' ≤ pct
  | .radBasic s e, .radBasic s' e' => s * e ≤ s' * e'
  | .radTwoEmi s e1 e2, .radTwoEmi s' e1' e2' => s ≤ s' ∧ e1 ≤ e1' ∧ e2 ≤ e2' ∧ m'.crust = m.crust ∧ m'.cover = m.cover
  | .convection, .convection => True
  | _, _ => False

/-- Harsher surroundings: colder air, more wind (a larger convection coefficient), a hotter or less extended crust, harsher fluxes, and perhaps further fluxes. -/
structure Harsher (m m' : Models ℝ) : Prop where
  air : m'.air.temp ≤ m.air.temp
  wind : m.air.convCoef ≤ m'.air.convCoef
  crust : ∀ s Tc', m'.crust.temperature s = .ok Tc' → ∃ Tc, m.crust.temperature s = .ok Tc ∧ Tc ≤ Tc'
  cover : ∀ x v, 0 < v → coverLaw m'.cover x v ≤ coverLaw m.cover x v
  fluxes : ∃ fs extra, m'.fluxes.Perm (fs ++ extra) ∧ List.Forall₂ (HarsherFlux m m') m.fluxes fs

end PyFlowGo.Spec
