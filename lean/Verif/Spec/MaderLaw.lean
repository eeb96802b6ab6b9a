import Verif.Spec.Laws
/-
  The shear-thinning law of Mader et al. (2013) as the code documents it (equations 46, 49, 50, 51): `φ` crystal
  fraction, `rp` aspect ratio, `g` strain rate.
-/
namespace PyFlowGo.Spec

/-- Flow index (eq. 50). -/
noncomputable def maderIndex (rp φ : ℝ) : ℝ := 1 - 0.2 * rp * (φ / muellerPacking rp) ^ 4

/-- The regime in which the strain rate matters: at least half the packing limit, and a flow index below 0.9. -/
def MaderThinning (rp φ : ℝ) : Prop := muellerPacking rp / 2 ≤ φ ∧ maderIndex rp φ < 0.9

open Classical in
/-- Relative viscosity: Maron-Pierce (eq. 46), times the power of the strain rate in the shear-thinning regime (eq. 51). -/
noncomputable def mader (rp φ g : ℝ) : ℝ :=
  if MaderThinning rp φ then maronPierceLaw (muellerPacking rp) φ * g ^ (maderIndex rp φ - 1)
  else maronPierceLaw (muellerPacking rp) φ

end PyFlowGo.Spec
