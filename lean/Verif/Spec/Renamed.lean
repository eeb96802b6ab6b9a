import Verif.Spec.RunText
/-
  C139: two configurations that differ in the name of the lava.
-/
set_option linter.unusedSectionVars false
namespace PyFlowGo
namespace Spec
variable {α : Type}

/-- The configurations `d` and `d'` agree in every entry but `lava_name`, which is `name` in the one and `name'` in the other. -/
structure Renamed (d d' name name' : Json α) : Prop where
  others : ∀ k, k ≠ "lava_name" → ∀ x, TopEntry d k x ↔ TopEntry d' k x
  first : TopEntry d "lava_name" name
  second : TopEntry d' "lava_name" name'

end Spec
end PyFlowGo
