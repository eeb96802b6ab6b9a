import Verif.Model.Bubbles
import Verif.Model.Yield
import Verif.Model.Terrain
/-
  pyflowgo/flowgo_material_lava.py and the parts of the yield-strength classes that call back into it.
-/
namespace PyFlowGo
variable {α : Type} [Add α] [Sub α] [Mul α] [Neg α] [OfScientific α] [PyNum α]

/-- flowgo_material_lava.py:30-75, `FlowGoMaterialLava`. `_max_packing` is read but never used by any
    method other than its getter; `_eruption_temperature` is kept. -/
structure Lava (α : Type) where
  eruptionT : α
  buffer : α
  latentHeat : α
  densityDre : α
  melt : MeltModel α
  rel : RelModel α
  bub : BubModel α
  yld : YieldModel α
  ves : VesicleModel α
  deriving Repr

/-- flowgo_material_lava.py:173-175 `computes_vesicle_fraction`. -/
def Lava.vesicleFraction (l : Lava α) (s : FlowState α) : α := l.ves.fraction s

/-- flowgo_material_lava.py:177-180 `get_bulk_density`. -/
def Lava.density (l : Lava α) (s : FlowState α) : α := l.densityDre * (1.0 - l.vesicleFraction s)

/-- flowgo_material_lava.py:86-87 `computes_molten_material_temperature`. -/
def Lava.moltenTemperature (l : Lava α) (s : FlowState α) : α := s.temp - l.buffer

/-- flowgo_material_lava.py:89-93 `computes_bulk_viscosity`. -/
def Lava.bulkViscosity (l : Lava α) (s : FlowState α) : Except Err α := do
  let a ← l.melt.viscosity s
  let b ← l.rel.relative s
  let c ← l.bub.relative s
  return a * b * c

/-- flowgo_material_lava.py:95-97 `is_notcompatible`. -/
def Lava.notCompatible (l : Lava α) (s : FlowState α) : Except Err Bool := l.rel.notCompatible s

/-- flowgo_material_lava.py:99-101 `get_yield_strength`. -/
def Lava.yieldStrength (l : Lava α) (s : FlowState α) : Except Err α := l.yld.strength s

/-- `compute_basal_shear_stress`: flowgo_yield_strength_model_basic.py:49-60 (and identically
    dragoni.py:52-63, dragoni_alone.py:72-103, ryerson.py:70-99, bll.py:86-118);
    flowgo_material_lava.py:103-105 `get_basal_shear_stress`. -/
def Lava.basalStress (l : Lava α) (t : Terrain α) (s : FlowState α) : Except Err α := do
  let sl ← t.slope s.pos
  return t.depth * l.density s * t.gravity * PyNum.sin sl

/-- `yield_strength_notcompatible`: flowgo_yield_strength_model_basic.py:62-68 (identical in the
    other classes); flowgo_material_lava.py:107-109. -/
def Lava.yieldNotCompatible (l : Lava α) (t : Terrain α) (s : FlowState α) : Except Err Bool := do
  let tho0 ← l.yieldStrength s
  let thob ← l.basalStress t s
  return leB thob tho0

/-- The velocity formula of flowgo_material_lava.py:151-152. -/
def velocityFormula (depth thob visc tho0 : α) : Except Err α := do
  let a ← PyNum.div (depth * thob) (3.0 * visc)
  let c ← PyNum.div 3.0 2.0
  let r ← PyNum.div tho0 thob
  return a * (1.0 - c * r + 0.5 * PyNum.npow r 3)

/-- The loop of flowgo_material_lava.py:148-167.  The first argument is the number of iterations
    left before `RuntimeError` (`max_iter`, line 146 and 166-167); returns `(v_mean, strain_rate)`.
    `self.computes_bulk_viscosity(state)` is re-evaluated on each iteration on the unchanged `state`. -/
def velocityLoop (l : Lava α) (s : FlowState α) (depth tho0 thob : α) :
    Nat → α → Except Err (α × α)
  | 0, _ => .error .runtimeError
  | fuel + 1, strain => do
    let visc ← l.bulkViscosity s
    let v ← velocityFormula depth thob visc tho0
    let newStrain ← PyNum.div (3.0 * v) depth
    let delta := PyNum.absv (newStrain - strain)
    if leB delta (pyMax (1e-2 * PyNum.absv newStrain) 1e-8) then
      return (v, newStrain)
    else velocityLoop l s depth tho0 thob fuel newStrain

/-- flowgo_material_lava.py:133-171 `compute_mean_velocity` (the second definition; the first, lines
    111-131, is shadowed).  Returns the velocity and the strain rate stored in the state at the end. -/
def Lava.meanVelocity (l : Lava α) (t : Terrain α) (s : FlowState α) : Except Err (α × α) := do
  let strain := if eqB s.strain 0.0 then 1e-8 else s.strain    -- `get_strain_rate() or 1e-8`
  let tho0 ← l.yieldStrength s
  let thob ← l.basalStress t s
  velocityLoop l s t.depth tho0 thob 50 strain

end PyFlowGo
