import Verif.Model.RelVisc
/-
  pyflowgo/flowgo_relative_viscosity_bubbles_model_*.py
-/
namespace PyFlowGo
variable {α : Type} [Add α] [Sub α] [Mul α] [Neg α] [OfScientific α] [PyNum α]

/-- The four bubble classes. -/
inductive BubModel (α : Type) where
  /-- flowgo_relative_viscosity_bubbles_model_no.py:31-37 -/
  | no
  /-- flowgo_relative_viscosity_bubbles_model_rigid.py:50-56 -/
  | rigid (ves : VesicleModel α)
  /-- flowgo_relative_viscosity_bubbles_model_defo.py:50-57 -/
  | defo (ves : VesicleModel α)
  /-- flowgo_relative_viscosity_bubbles_model_mader.py:52-80 -/
  | mader (radius tension : α) (ves : VesicleModel α) (melt : MeltModel α) (rel : RelModel α)
  deriving Repr

/-- `compute_relative_viscosity_bubbles(state)`: no.py:44-49 (the vesicle fraction it computes is
    unused and cannot fail), rigid.py:63-68, defo.py:64-68, mader.py:82-103. -/
def BubModel.relative (m : BubModel α) (s : FlowState α) : Except Err α :=
  match m with
  | .no => .ok 1.0
  | .rigid ves => PyNum.mpow (1.0 - ves.fraction s) (-1.0)
  | .defo ves => do
    let e ← PyNum.div 5.0 3.0
    PyNum.mpow (1.0 - ves.fraction s) e
  | .mader radius tension ves melt rel => do
    let vf := ves.fraction s
    let mv ← melt.viscosity s
    let rc ← rel.relative s
    let relax ← PyNum.div (radius * (mv * rc)) tension
    let ca := relax * s.strain
    if ltB ca 1.0 then PyNum.pow (1.0 - vf) (-1.0)
    else do
      let e ← PyNum.div 5.0 3.0
      PyNum.pow (1.0 - vf) e

end PyFlowGo
