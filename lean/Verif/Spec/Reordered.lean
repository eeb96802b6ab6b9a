import Verif.Spec.Relevant
import Mathlib.Data.List.Forall2
/-
  A configuration written in another order.
-/
namespace PyFlowGo.Spec
variable {α : Type}

/-- The same members in another order, no key occurring twice. -/
def Rearranged (m m' : List (String × Json α)) : Prop := (m.map Prod.fst).Nodup ∧ m'.Perm m

/-- The same value, or an object whose members stand in another order. -/
def SameButOrder (v v' : Json α) : Prop := v = v' ∨ ∃ m m', v = .obj m ∧ v' = .obj m' ∧ Rearranged m m'

/-- The configuration `d'` is `d` with its sections in another order, and the entries of the sections in another order. The four entries outside the sections that a run uses (name of
    the lava, effusion rate, slope file, step) keep their values: were such a value an object, its order would show in the name of the result file. -/
def Reordered (d d' : Json α) : Prop :=
  ∃ top mid top', d = .obj top ∧ d' = .obj top' ∧ Rearranged mid top' ∧
    List.Forall₂ (fun a b => a.1 = b.1 ∧ (a.1 ∈ usedTop → a.2 = b.2) ∧ SameButOrder a.2 b.2) top mid

end PyFlowGo.Spec
