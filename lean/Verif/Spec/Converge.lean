import Verif.Spec.EulerSpec
import Mathlib.Analysis.Calculus.Deriv.Basic
import Mathlib.Analysis.SpecialFunctions.Exp
/-
  The differential equations along the channel that the result table approximates.
-/
namespace PyFlowGo.Spec
open Set

/-- How fast temperature, crystal fraction and time change per metre of channel. -/
structure Slopes where
  temp : ℝ
  crystal : ℝ
  time : ℝ

/-- The right-hand side of the flow equations at the state `s`: the heat lost per metre is the sum of the chosen fluxes,
    the gradients are those of the documented columns `dtemp_dx` and `dphi_dx`, and time passes at the rate 1/velocity. -/
def FlowEquations (g : Integrator ℝ) (T : Terrain ℝ) (fluxRate : Option ℝ) (E : ℝ) (s : FlowState ℝ) (G : Slopes) : Prop :=
  ∃ d : RowData, RowMade g T fluxRate E s d ∧
    (∃ qs : List ℝ, List.Forall₂ (FluxIs g.models d.width T.depth T s) g.models.fluxes qs ∧ d.heat = qs.sum) ∧
    G.temp = tempGradient g E s d ∧ G.crystal = crystalGradient g E s d ∧ G.time = 1 / d.v

/-- Temperature, crystal fraction and time as functions of the distance. -/
structure Profile where
  temp : ℝ → ℝ
  crystal : ℝ → ℝ
  time : ℝ → ℝ

/-- The state of the lava at the distance `x` (the strain rate is not part of the profile). -/
def Profile.state (P : Profile) (x : ℝ) : FlowState ℝ :=
  { crystal := P.crystal x, temp := P.temp x, pos := x, time := P.time x, strain := 0 }

/-- `P` is a solution of the flow equations from `a` to `b`. -/
def Solves (g : Integrator ℝ) (T : Terrain ℝ) (fluxRate : Option ℝ) (E a b : ℝ) (P : Profile) : Prop :=
  ∀ x ∈ Icc a b, ∃ G, FlowEquations g T fluxRate E (P.state x) G ∧ HasDerivWithinAt P.temp G.temp (Icc a b) x ∧
    HasDerivWithinAt P.crystal G.crystal (Icc a b) x ∧ HasDerivWithinAt P.time G.time (Icc a b) x

/-- Two slopes differ by at most `e`. -/
def Slopes.within (G G' : Slopes) (e : ℝ) : Prop :=
  |G.temp - G'.temp| ≤ e ∧ |G.crystal - G'.crystal| ≤ e ∧ |G.time - G'.time| ≤ e

/-- At each position the right-hand side is `K`-Lipschitz in temperature and crystal fraction, for positions, temperatures and crystal
    fractions in `R`. -/
def LipschitzRhs (g : Integrator ℝ) (T : Terrain ℝ) (fluxRate : Option ℝ) (E : ℝ) (R : ℝ → ℝ → ℝ → Prop)
    (K : ℝ) : Prop :=
  ∀ s s' G G', R s.pos s.temp s.crystal → R s'.pos s'.temp s'.crystal → s.pos = s'.pos →
 FlowEquations g T fluxRate E s G → FlowEquations g T fluxRate E s' G' →
    G.within G' (K * max |s.temp - s'.temp| |s.crystal - s'.crystal|)

/-- The slopes along `P` are `M`-Lipschitz functions of the distance. -/
def SmoothProfile (g : Integrator ℝ) (T : Terrain ℝ) (fluxRate : Option ℝ) (E a b : ℝ) (P : Profile) (M : ℝ) : Prop :=
  ∀ x ∈ Icc a b, ∀ y ∈ Icc a b, ∀ G G', FlowEquations g T fluxRate E (P.state x) G →
    FlowEquations g T fluxRate E (P.state y) G' → G.within G' (M * |x - y|)

/-- The effusion rate of a run that starts at the world `w`: velocity at the vent times width and depth on a first run. -/
def VentRate (g : Integrator ℝ) (w : World ℝ) (E : ℝ) : Prop :=
  ∀ v x, g.models.lava.meanVelocity w.terrain w.st = .ok (v, x) →
    E = if w.iteration = 0 then v * w.terrain.width * w.terrain.depth else w.effusionRate

/-- The state `s` is within `e` of the profile at its position. -/
def CloseTo (P : Profile) (s : FlowState ℝ) (e : ℝ) : Prop :=
  |s.temp - P.temp s.pos| ≤ e ∧ |s.crystal - P.crystal s.pos| ≤ e ∧ |s.time - P.time s.pos| ≤ e

end PyFlowGo.Spec
