import Verif.Proofs.Velocity
import Verif.Spec.Rheology
namespace PyFlowGo
variable {α : Type} [Add α] [Sub α] [Mul α] [Neg α] [OfScientific α] [PyNum α]

/-- The relative-viscosity laws that do not read the strain rate. -/
def RelModel.StrainFree : RelModel α → Prop
  | .bll .. => False
  | .mader _ => False
  | _ => True

/-- The bubble laws that do not read the strain rate. -/
def BubModel.StrainFree : BubModel α → Prop
  | .mader .. => False
  | _ => True

/-- Lava whose rheology does not read the strain rate. -/
def Lava.StrainFree (l : Lava α) : Prop := l.rel.StrainFree ∧ l.bub.StrainFree

theorem ves_strain (m : VesicleModel α) (s : FlowState α) (x : α) :
    m.fraction { s with strain := x } = m.fraction s := by
  cases m <;> rfl

theorem melt_strain (m : MeltModel α) (s : FlowState α) (x : α) :
    m.viscosity { s with strain := x } = m.viscosity s := by
  cases m <;> rfl

theorem rel_strain (m : RelModel α) (h : m.StrainFree) (s : FlowState α) (x : α) :
    m.relative { s with strain := x } = m.relative s := by
  cases m <;> first | exact h.elim | (simp only [RelModel.relative, ves_strain])

theorem bub_strain (m : BubModel α) (h : m.StrainFree) (s : FlowState α) (x : α) :
    m.relative { s with strain := x } = m.relative s := by
  cases m <;> first | exact h.elim | (simp only [BubModel.relative, ves_strain])

theorem bulk_strain (l : Lava α) (h : l.StrainFree) (s : FlowState α) (x : α) :
    l.bulkViscosity { s with strain := x } = l.bulkViscosity s := by
  unfold Lava.bulkViscosity
  rw [melt_strain, rel_strain _ h.1, bub_strain _ h.2]

theorem yield_strain (m : YieldModel α) (s : FlowState α) (x : α) :
    m.strength { s with strain := x } = m.strength s := by
  cases m <;> simp only [YieldModel.strength, ves_strain]

theorem density_strain (l : Lava α) (s : FlowState α) (x : α) :
    l.density { s with strain := x } = l.density s := by
  simp only [Lava.density, Lava.vesicleFraction, ves_strain]

theorem basal_strain (l : Lava α) (t : Terrain α) (s : FlowState α) (x : α) :
    l.basalStress t { s with strain := x } = l.basalStress t s := by
  simp only [Lava.basalStress, density_strain]

theorem notCompatible_strain (m : RelModel α) (s : FlowState α) (x : α) :
    m.notCompatible { s with strain := x } = m.notCompatible s := by
  cases m <;> simp only [RelModel.notCompatible, ves_strain]

theorem yieldNotCompatible_strain (l : Lava α) (t : Terrain α) (s : FlowState α) (x : α) :
    l.yieldNotCompatible t { s with strain := x } = l.yieldNotCompatible t s := by
  simp only [Lava.yieldNotCompatible, Lava.yieldStrength, yield_strain, basal_strain]

/-- At ℝ the velocity of a strain-free lava does not depend on the stored strain rate. -/
theorem meanVelocity_strain (l : Lava ℝ) (h : Spec.StrainIndependent l) (t : Terrain ℝ) (s : FlowState ℝ) (x : ℝ) :
    l.meanVelocity t { s with strain := x } = l.meanVelocity t s := by
  simp only [meanVelocity_eq, Lava.yieldStrength, yield_strain, basal_strain, velocityPass,
    h s x]

end PyFlowGo
