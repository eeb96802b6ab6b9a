import Verif.Model.Lava
import Verif.Model.RealNum
import Verif.Spec.Laws
/-
  Vocabulary for statements about rheology.
-/
namespace PyFlowGo.Spec
variable {α : Type} [Add α] [Sub α] [Mul α] [Neg α] [OfScientific α] [PyNum α]

/-- The viscosity computed for a state does not depend on its strain rate. -/
def StrainIndependent (l : Lava α) : Prop :=
  ∀ (s : FlowState α) (x : α), l.bulkViscosity { s with strain := x } = l.bulkViscosity s

/-- Parameters with the physical sign: positive viscosity at eruption, positive Shaw slope, positive B. -/
def MeltValid : MeltModel ℝ → Prop
  | .basic eta0 _ => 0 < eta0
  | .shaw slope => 0 < slope
  | .vft _ b _ => 0 < b

/-- The temperatures on which the law is physical. -/
def MeltDomain : MeltModel ℝ → ℝ → Prop
  | .basic _ _, _ => True
  | .shaw _, T => 0 < T
  | .vft _ _ c, T => c < T

/-- Parameters with a physical meaning for a state (vesicle fraction in [0,1)). -/
def RelValid (s : FlowState ℝ) : RelModel ℝ → Prop
  | .er => True
  | .kd φm b => 0 < φm ∧ 0 < b
  | .mp φm => 0 < φm
  | .mpMueller rp => 0 < rp
  | .ptp1 ves => 0 ≤ ves.fraction s ∧ ves.fraction s < 1
  | .ptp2 ves => 0 < ves.fraction s ∧ ves.fraction s < 1
  | .ptp3 ves => 0 ≤ ves.fraction s ∧ ves.fraction s < 1
  | _ => False

/-- The crystal fraction at which the law diverges. -/
noncomputable def packingLimit (s : FlowState ℝ) : RelModel ℝ → ℝ
  | .er => 1 / 1.51
  | .kd φm _ => φm
  | .mp φm => φm
  | .mpMueller rp => muellerPacking rp
  | .ptp1 ves => 1 - ves.fraction s
  | .ptp2 ves => 1 - ves.fraction s
  | .ptp3 ves => 1 - ves.fraction s
  | _ => 0

/-- The law, as a function of the crystal fraction. -/
noncomputable def relLaw (s : FlowState ℝ) : RelModel ℝ → ℝ → ℝ
  | .er, φ => einsteinRoscoe φ
  | .kd φm b, φ => kriegerDougherty φm b φ
  | .mp φm, φ => maronPierceLaw φm φ
  | .mpMueller rp, φ => maronPierceLaw (muellerPacking rp) φ
  | .ptp1 ves, φ => phanThienPham1 φ (ves.fraction s)
  | .ptp2 ves, φ => phanThienPham2 φ (ves.fraction s)
  | .ptp3 ves, φ => phanThienPham3 φ (ves.fraction s)
  | _, _ => 0

/-- The capillary number of the mader bubble model. -/
noncomputable def capillary (radius tension eta rel strain : ℝ) : ℝ := radius * (eta * rel) / tension * strain

/-- The Newtonian part of the BLL law. -/
noncomputable def bllNewtonian (pm bs bg φ v : ℝ) : ℝ := (1 - φ / pm) ^ (-bs) * (1 - v) ^ (-bg)

/-- States and parameters on which a relative-viscosity model is meant to be used: crystal fraction in
    [0, packing), positive parameters, positive strain rate for mader, a supported Costa parameter. -/
def RelUsable (s : FlowState ℝ) : RelModel ℝ → Prop
  | .mader rp => 0 < rp ∧ s.crystal < muellerPacking rp
  | .bll pm _ _ _ _ _ _ _ => 0 < pm ∧ s.crystal < pm
  | .costa1 _ => True
  | .costa2 _ => True
  | m => RelValid s m ∧ s.crystal < packingLimit s m

/-- The vesicle model a bubble model reads. -/
noncomputable def bubVesicles (s : FlowState ℝ) : BubModel ℝ → ℝ
  | .no => 0
  | .rigid ves => ves.fraction s
  | .defo ves => ves.fraction s
  | .mader _ _ ves _ _ => ves.fraction s

/-- The yield strength of each model as a sum of the laws of the literature. -/
noncomputable def yieldLaw (s : FlowState ℝ) : YieldModel ℝ → ℝ
  | .basic te => yieldDragoni te s.temp + yieldRyerson s.crystal
  | .dragoni tl => yieldDragoni tl s.temp + yieldRyerson s.crystal
  | .dragoniAlone tl => yieldDragoni tl s.temp
  | .ryerson => yieldRyerson s.crystal
  | .bll ves => yieldBll s.crystal (ves.fraction s)

end PyFlowGo.Spec
