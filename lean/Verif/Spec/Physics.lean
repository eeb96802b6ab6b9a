import Mathlib.Analysis.SpecialFunctions.Pow.Real
import Mathlib.Analysis.SpecialFunctions.Trigonometric.Basic
/-
  The physical laws the code claims to implement, on real numbers, written without reference to the
  model.
-/
namespace PyFlowGo.Spec

/-- Mean velocity of a Bingham fluid in a wide channel (Jeffreys/Bingham): depth, basal shear stress,
    viscosity, yield strength. -/
noncomputable def binghamVelocity (depth thob visc tho0 : ℝ) : ℝ :=
  depth * thob / (3 * visc) * (1 - 3 / 2 * (tho0 / thob) + 1 / 2 * (tho0 / thob) ^ 3)

/-- The stress at the base of a layer of given depth and density on a slope (radians). -/
noncomputable def basalShear (depth density gravity slope : ℝ) : ℝ :=
  depth * density * gravity * Real.sin slope

end PyFlowGo.Spec
