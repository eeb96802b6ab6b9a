import Verif.Spec.Converge
import Verif.Spec.Rheology
/-
  Words for comparing two runs that differ only in how much heat is lost.
-/
namespace PyFlowGo.Spec

/-- The heat flux `f` takes heat away (or does nothing) from every lava at a position, temperature and crystal fraction in `R`,
    whatever the width of the channel. -/
def NeverWarms (m : Models ℝ) (T : Terrain ℝ) (R : ℝ → ℝ → ℝ → Prop) (f : Flux ℝ) : Prop :=
  ∀ width s q, 0 < width → R s.pos s.temp s.crystal → FluxIs m width T.depth T s f q → 0 ≤ q

/-- The relative-viscosity model declares a lava unusable above a crystal fraction, and only then. (The `mader` model compares
    for equality, so its test is not of this kind.) -/
def PackingChecked : RelModel ℝ → Prop
  | .mader _ => False
  | .kd phimax _ => 0 < phimax
  | .mp phimax => 0 < phimax
  | .mpMueller rp => 0 < rp
  | _ => True

/-- At the same place, on the same crystallisation path (`r` crystals per kelvin), a colder lava cools more slowly by at most `K` kelvin per
    metre and kelvin of difference (it may well cool faster: a colder lava is slower, its channel wider). The hotter lava is in the region `R`,
    the colder in `R'`. -/
def ColderSlower (g : Integrator ℝ) (T : Terrain ℝ) (fluxRate : Option ℝ) (E : ℝ) (R R' : ℝ → ℝ → ℝ → Prop) (r K : ℝ) : Prop :=
  ∀ s s' G G', R s.pos s.temp s.crystal → R' s'.pos s'.temp s'.crystal → s.pos = s'.pos → s'.temp ≤ s.temp →
    s'.crystal - s.crystal = r * (s.temp - s'.temp) →
    FlowEquations g T fluxRate E s G → FlowEquations g T fluxRate E s' G' → G'.temp - G.temp ≤ K * (s.temp - s'.temp)

/-- The same on neighbouring crystallisation paths: the colder lava has `δ` crystals more than it would have if it had cooled from the hotter one. -/
def ColderSlowerBy (g : Integrator ℝ) (T : Terrain ℝ) (fluxRate : Option ℝ) (E : ℝ) (R R' : ℝ → ℝ → ℝ → Prop) (r δ K : ℝ) : Prop :=
  ∀ s s' G G', R s.pos s.temp s.crystal → R' s'.pos s'.temp s'.crystal → s.pos = s'.pos → s'.temp ≤ s.temp →
    s'.crystal - s.crystal = r * (s.temp - s'.temp) + δ →
    FlowEquations g T fluxRate E s G → FlowEquations g T fluxRate E s' G' → G'.temp - G.temp ≤ K * (s.temp - s'.temp)

/-- The same flow with another list of heat fluxes. -/
def withFluxes (g : Integrator ℝ) (fs : List (Flux ℝ)) : Integrator ℝ := { g with models := { g.models with fluxes := fs } }

/-- Two result tables show the number `y` and the number `y'` in the same column at the same distance. -/
def BothShow (a b : Log (Cell ℝ)) (column : String) (x y y' : ℝ) : Prop :=
  loggedNum a x column = some y ∧ loggedNum b x column = some y'

end PyFlowGo.Spec
