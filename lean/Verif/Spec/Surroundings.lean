import Verif.Spec.Relevant
/-
  The entries of a configuration file that describe what surrounds the lava.
-/
namespace PyFlowGo.Spec
variable {α : Type}

/-- The entries about the surroundings and the surface of the lava: the sections on convection, rain, radiation and conduction, the choice of heat fluxes, the section of
    thermal parameters but for the buffer, and the names of the models of crust temperature and cover. -/
def surroundings (sec key : String) : Bool :=
  sec == "convection_parameters" || sec == "rain_parameters" || sec == "radiation_parameters" || sec == "conduction_parameters" || sec == "heat_budget_models" ||
    (sec == "thermal_parameters" && key != "buffer") || (sec == "models" && (key == "crust_temperature_model" || key == "effective_cover_crust_model"))

/-- Two configurations that differ, if at all, in the surroundings. -/
structure SameButSurroundings (d d' : Json α) : Prop where
  entry : ∀ sec key v, surroundings sec key = false → (EntryAt d sec key v ↔ EntryAt d' sec key v)
  top : ∀ k ∈ "melts_look-up_table" :: usedTop, ∀ v, TopEntry d k v ↔ TopEntry d' k v

end PyFlowGo.Spec
