import Verif.Model.World
/-
  pyflowgo/flowgo_effective_cover_crust_model_*.py
-/
namespace PyFlowGo
variable {α : Type} [Add α] [Sub α] [Mul α] [Neg α] [OfScientific α] [PyNum α]

/-- The cover fraction as a function of velocity and position: basic.py:81,
    bimodal.py:101-104. -/
def CoverModel.value (c : CoverModel α) (pos v : α) : α :=
  match c with
  | .basic alpha fc => fc * PyNum.exp (alpha * v)
  | .bimodal d a1 a2 f1 f2 =>
    if leB pos d then f1 * PyNum.exp (a1 * v) else f2 * PyNum.exp (a2 * v)

/-- `compute_effective_cover_fraction(state)`: basic.py:77-83, bimodal.py:96-104. Calls
    `compute_mean_velocity`, which stores the strain rate. -/
def effectiveCover (m : Models α) : PyM (World α) α := do
  let w ← PyM.get
  let v ← meanVelocityM m.lava
  return m.cover.value w.st.pos v

end PyFlowGo
