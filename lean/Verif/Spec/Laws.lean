import Mathlib.Analysis.SpecialFunctions.Pow.Real
import Mathlib.Analysis.SpecialFunctions.Log.Base
import Mathlib.MeasureTheory.Integral.IntervalIntegral.Basic
/-
  The rheological laws of the literature the code claims to implement, on real numbers, written without
  reference to the model: φ crystal fraction, v vesicle fraction, T temperature [K].
-/
namespace PyFlowGo.Spec

/-- Melt viscosity of Harris & Rowland (2001): exponential in the temperature drop. -/
noncomputable def meltBasic (eta0 tErupt T : ℝ) : ℝ := eta0 * Real.exp (0.04 * (tErupt - T))

/-- Melt viscosity of Shaw (1972), converted to Pa s. -/
noncomputable def meltShaw (slope T : ℝ) : ℝ :=
  10 ^ ((slope * (10000 / T) - 1.5 * slope - 6.4) / 2.303 - 1)

/-- Melt viscosity of Giordano et al. (2008), Vogel-Fulcher-Tammann. -/
noncomputable def meltVft (A B C T : ℝ) : ℝ := 10 ^ (A + B / (T - C))

/-- Einstein-Roscoe. -/
noncomputable def einsteinRoscoe (φ : ℝ) : ℝ := (1 - 1.51 * φ) ^ (-(5 / 2) : ℝ)

/-- Krieger-Dougherty. -/
noncomputable def kriegerDougherty (φm B φ : ℝ) : ℝ := (1 - φ / φm) ^ (-(B * φm))

/-- Maron-Pierce. -/
noncomputable def maronPierceLaw (φm φ : ℝ) : ℝ := (1 - φ / φm) ^ (-2 : ℝ)

/-- Packing limit of Mueller et al. (2010) for particles of aspect ratio `rp`. -/
noncomputable def muellerPacking (rp : ℝ) : ℝ := 0.55 * Real.exp (-((Real.logb 10 rp) ^ 2 / 2))

/-- Three-phase laws of Phan-Thien & Pham (1997), cases 1 to 3. -/
noncomputable def phanThienPham1 (φ v : ℝ) : ℝ := (1 - φ / (1 - v)) ^ (-(5 / 2) : ℝ) * (1 - v)⁻¹
/-- case 2 -/
noncomputable def phanThienPham2 (φ v : ℝ) : ℝ := (1 - φ - v) ^ (-((5 * φ + 2 * v) / (2 * (φ + v))))
/-- case 3 -/
noncomputable def phanThienPham3 (φ v : ℝ) : ℝ := (1 - v / (1 - φ))⁻¹ * (1 - φ) ^ (-(5 / 2) : ℝ)

/-- The error function. -/
noncomputable def erf (x : ℝ) : ℝ := 2 / Real.sqrt Real.pi * ∫ t in (0 : ℝ)..x, Real.exp (-t ^ 2)

/-- The law of Costa et al. (2009) with fit parameters δ, γ, φ*, ε; the argument of erf is capped at 25. -/
noncomputable def costa (δ γ φs ε φ : ℝ) : ℝ :=
  (1 + (φ / φs) ^ δ) /
    (1 - (1 - ε) * erf (min 25 (Real.sqrt Real.pi / (2 * (1 - ε)) * (φ / φs) * (1 + (φ / φs) ^ γ)))) ^ (2.5 * φs)

/-- Viscosity factor of rigid bubbles. -/
noncomputable def bubblesRigid (v : ℝ) : ℝ := (1 - v)⁻¹
/-- Viscosity factor of deformable bubbles. -/
noncomputable def bubblesDeformable (v : ℝ) : ℝ := (1 - v) ^ (5 / 3 : ℝ)

/-- Yield strength of Dragoni (1989) as coded: the -1 is inside the exponential. -/
noncomputable def yieldDragoni (tRef T : ℝ) : ℝ := 0.01 * Real.exp (0.08 * (tRef - T) - 1)
/-- Yield strength of Ryerson et al. (1988). -/
noncomputable def yieldRyerson (φ : ℝ) : ℝ := 6500 * φ ^ (2.85 : ℝ)
/-- Yield strength of the bubble-liquid-lava model. -/
noncomputable def yieldBll (φ v : ℝ) : ℝ := 10 ^ (80 * (φ - 0.35)) + 10 ^ (1.98 * (φ + v - 0.35))

end PyFlowGo.Spec
