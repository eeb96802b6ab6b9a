import Verif.Spec.RunText
import Verif.Model.RealNum
/-
  C140: configurations that select different classes for the same law.
-/
set_option linter.unusedSectionVars false
namespace PyFlowGo
namespace Spec
variable {α : Type}

/-- The configurations `d` and `d'` agree in every entry but one: in the section `models`, the model `key` is called `a` in the one and `b` in the other. -/
structure Switched (d d' : Json α) (key a b : String) : Prop where
  top : ∀ k, k ≠ "models" → ∀ x, TopEntry d k x ↔ TopEntry d' k x
  models : ∀ k, k ≠ key → ∀ x, EntryAt d "models" k x ↔ EntryAt d' "models" k x
  first : EntryAt d "models" key (.str a)
  second : EntryAt d' "models" key (.str b)

variable [Sub α] [OfScientific α] [PyNum α]

/-- The crust-cover model `name` has, with the entries of `d`, the coefficient `alpha` and the fraction `f` along the whole flow. -/
def OneCover (env : Env α) (d : Json α) (name : String) (alpha f : α) : Prop :=
  (name = "basic" ∧ NumberAt env d "thermal_parameters" "alpha" alpha ∧ NumberAt env d "thermal_parameters" "crust_cover_fraction" f) ∨
  (name = "bimodal" ∧ (∃ c, NumberAt env d "lava_state" "critical_distance" c) ∧
    NumberAt env d "thermal_parameters" "alpha_1" alpha ∧ NumberAt env d "thermal_parameters" "alpha_2" alpha ∧
    NumberAt env d "thermal_parameters" "crust_cover_fraction" f ∧ NumberAt env d "thermal_parameters" "crust_cover_fraction_2" f)

/-- The crystallisation model `name` has, with the entries of `d`, the rate `r` along the whole flow. -/
def OneRate (env : Env α) (d : Json α) (name : String) (r : α) : Prop :=
  (name = "basic" ∧ ∃ grown solid eruption, NumberAt env d "crystals_parameters" "crystals_grown_during_cooling" grown ∧
    NumberAt env d "crystals_parameters" "solid_temperature" solid ∧ NumberAt env d "eruption_condition" "eruption_temperature" eruption ∧
    PyNum.div grown (eruption - solid) = .ok r) ∨
  (name = "bimodal" ∧ (∃ c, NumberAt env d "lava_state" "critical_distance" c) ∧
    NumberAt env d "crystals_parameters" "crystallization_rate_1" r ∧ NumberAt env d "crystals_parameters" "crystallization_rate_2" r) ∨
  (name = "bimodal_f_temp" ∧ (∃ c, NumberAt env d "lava_state" "critical_temperature" c) ∧
    NumberAt env d "crystals_parameters" "crystallization_rate_1" r ∧ NumberAt env d "crystals_parameters" "crystallization_rate_2" r)

/-- The vesicle model `name` has, with the entries of `d`, the fraction `v` along the whole flow. -/
def OneVesicularity (env : Env α) (d : Json α) (name : String) (v : α) : Prop :=
  (name = "constant" ∧ NumberAt env d "lava_state" "vesicle_fraction" v) ∨
  (name = "bimodal" ∧ (∃ c, NumberAt env d "lava_state" "critical_distance" c) ∧
    NumberAt env d "lava_state" "vesicle_fraction_1" v ∧ NumberAt env d "lava_state" "vesicle_fraction_2" v)

/-- As `OneVesicularity`, with the models that vary along the flow but whose coefficients are configured as zero. -/
def EvenVesicularity (env : Env ℝ) (d : Json ℝ) (name : String) (v : ℝ) : Prop :=
  OneVesicularity env d name v ∨
  (name = "variable" ∧ NumberAt env d "lava_state" "vesicle_fraction" v ∧ NumberAt env d "lava_state" "vesicle_coef" 0) ∨
  (name = "variable_bimodal" ∧ (∃ c, NumberAt env d "lava_state" "critical_distance" c) ∧
    NumberAt env d "lava_state" "vesicle_fraction" v ∧ NumberAt env d "lava_state" "vesicle_coef" 0) ∨
  (name = "poly" ∧ NumberAt env d "lava_state" "vesicle_fraction" v ∧ NumberAt env d "lava_state" "vesicle_poly_a" 0 ∧
    NumberAt env d "lava_state" "vesicle_poly_b" 0)

/-- One model of `d` is exchanged for another that gives the same numbers with the entries of `d`; the result is `d'`. -/
def SameLawModel (env : Env α) (d d' : Json α) : Prop := ∃ a b,
  (Switched d d' "effective_cover_crust_model" a b ∧ ∃ alpha f, OneCover env d a alpha f ∧ OneCover env d b alpha f) ∨
  (Switched d d' "crystallization_rate_model" a b ∧ ∃ r, OneRate env d a r ∧ OneRate env d b r ∧
    (∃ x, NumberAt env d "lava_state" "crystal_fraction" x) ∧ (∃ x, NumberAt env d "crystals_parameters" "solid_temperature" x) ∧
    ∃ x, NumberAt env d "eruption_condition" "eruption_temperature" x) ∨
  (Switched d d' "vesicle_fraction_model" a b ∧ ∃ v, OneVesicularity env d a v ∧ OneVesicularity env d b v)

/-- `d'` is obtained from `d` by exchanging models any number of times. -/
inductive SameLawModels (env : Env α) : Json α → Json α → Prop
  | refl (d : Json α) : SameLawModels env d d
  | step {d d' d'' : Json α} : SameLawModel env d d' → SameLawModels env d' d'' → SameLawModels env d d''

end Spec
end PyFlowGo
