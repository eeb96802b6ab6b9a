import Verif.Model.Json
/-
  What a configuration must contain: documented names and required entries, as tables.
-/
namespace PyFlowGo.Spec
variable {α : Type}

/-- The configuration has the entry `data[sec][key]`, with value `v`. -/
def EntryAt (data : Json α) (sec key : String) (v : Json α) : Prop :=
  ∃ top inner, data = .obj top ∧ lookup top sec = some (.obj inner) ∧ lookup inner key = some v

/-- The configuration has the top-level entry `data[key]`, with value `v`. -/
def TopEntry (data : Json α) (key : String) (v : Json α) : Prop :=
  ∃ top, data = .obj top ∧ lookup top key = some v

/-- The entry `data[sec][key]` is there and `float` makes it the number `x`. -/
def NumberAt [OfScientific α] [PyNum α] (env : Env α) (data : Json α) (sec key : String) (x : α) : Prop :=
  ∃ v, EntryAt data sec key v ∧ v.toFloat env = .ok x

/-- Documented names of the crystallisation-rate models. -/
def crystNames : List String := ["basic", "bimodal", "bimodal_f_temp", "melts"]
/-- Documented names of the vesicle-fraction models. -/
def vesNames : List String := ["constant", "bimodal", "variable", "variable_bimodal", "poly"]
/-- Documented names of the melt-viscosity models. -/
def meltNames : List String := ["basic", "shaw", "vft"]
/-- Documented names of the relative-viscosity models. -/
def relNames : List String :=
  ["er", "kd", "mp", "mp_mueller", "mader", "bll", "ptp1", "ptp2", "ptp3", "costa1", "costa2"]
/-- Documented names of the bubble models. -/
def bubNames : List String := ["rigid", "deformable", "no", "mader"]
/-- Documented names of the yield-strength models. -/
def yldNames : List String := ["basic", "dragoni", "dragoni-alone", "ryerson", "bll"]
/-- Documented names of the effective-cover models. -/
def coverNames : List String := ["basic", "bimodal"]
/-- Documented names of the crust-temperature models. -/
def crustNames : List String := ["constant", "hon", "bimodal", "field"]
/-- Documented names of the radiation models. -/
def radNames : List String := ["basic", "2_emi", "cont", "lin_emi", "no"]
/-- A switch. -/
def switchNames : List String := ["yes", "no"]

/-- The model names chosen in a configuration. -/
structure Choice where
  cryst : String
  melt : String
  rel : String
  bub : String
  yld : String
  crust : String
  cover : String
  ves : String
  radiation : String
  snyder : String
  conduction : String
  convection : String
  rain : String
  viscous : String

/-- `data` selects these models. -/
def Selects (data : Json α) (c : Choice) : Prop :=
  EntryAt data "models" "crystallization_rate_model" (.str c.cryst) ∧
  EntryAt data "models" "melt_viscosity_model" (.str c.melt) ∧
  EntryAt data "models" "relative_viscosity_model" (.str c.rel) ∧
  EntryAt data "models" "relative_viscosity_bubbles_model" (.str c.bub) ∧
  EntryAt data "models" "yield_strength_model" (.str c.yld) ∧
  EntryAt data "models" "crust_temperature_model" (.str c.crust) ∧
  EntryAt data "models" "effective_cover_crust_model" (.str c.cover) ∧
  EntryAt data "models" "vesicle_fraction_model" (.str c.ves) ∧
  EntryAt data "heat_budget_models" "radiation" (.str c.radiation) ∧
  EntryAt data "heat_budget_models" "snyder" (.str c.snyder) ∧
  EntryAt data "heat_budget_models" "conduction" (.str c.conduction) ∧
  EntryAt data "heat_budget_models" "convection" (.str c.convection) ∧
  EntryAt data "heat_budget_models" "rain" (.str c.rain) ∧
  EntryAt data "heat_budget_models" "viscous_heating" (.str c.viscous)

/-- Every chosen name is documented, and snyder is not combined with radiation or convection. -/
def Documented (c : Choice) : Prop :=
  c.cryst ∈ crystNames ∧ c.melt ∈ meltNames ∧ c.rel ∈ relNames ∧ c.bub ∈ bubNames ∧ c.yld ∈ yldNames ∧
  c.crust ∈ crustNames ∧ c.cover ∈ coverNames ∧ c.ves ∈ vesNames ∧ c.radiation ∈ radNames ∧
  c.snyder ∈ switchNames ∧ c.conduction ∈ switchNames ∧ c.convection ∈ switchNames ∧ c.rain ∈ switchNames ∧
  c.viscous ∈ switchNames ∧ (c.snyder = "yes" → c.radiation = "no" ∧ c.convection = "no")

/-- A required entry: section and key. -/
abbrev Req := String × String

/-- Numbers a crystallisation-rate model needs. -/
def crystReq : String → List Req
  | "basic" => [("lava_state", "crystal_fraction"), ("crystals_parameters", "crystals_grown_during_cooling"),
      ("crystals_parameters", "solid_temperature"), ("eruption_condition", "eruption_temperature")]
  | "bimodal" => [("lava_state", "crystal_fraction"), ("lava_state", "critical_distance"),
      ("crystals_parameters", "crystallization_rate_1"), ("crystals_parameters", "crystallization_rate_2"),
      ("crystals_parameters", "solid_temperature"), ("eruption_condition", "eruption_temperature")]
  | "bimodal_f_temp" => [("lava_state", "crystal_fraction"), ("lava_state", "critical_temperature"),
      ("crystals_parameters", "crystallization_rate_1"), ("crystals_parameters", "crystallization_rate_2"),
      ("crystals_parameters", "solid_temperature"), ("eruption_condition", "eruption_temperature")]
  | "melts" => [("lava_state", "crystal_fraction"), ("crystals_parameters", "solid_temperature"),
      ("eruption_condition", "eruption_temperature")]
  | _ => []

/-- Numbers the air needs. -/
def airReq : List Req :=
  [("convection_parameters", "air_temperature"), ("convection_parameters", "wind_speed"),
   ("convection_parameters", "ch_air"), ("convection_parameters", "air_density"),
   ("convection_parameters", "air_specific_heat_capacity")]

/-- Numbers a vesicle-fraction model needs. -/
def vesReq : String → List Req
  | "constant" => [("lava_state", "vesicle_fraction")]
  | "bimodal" => [("lava_state", "critical_distance"), ("lava_state", "vesicle_fraction_1"),
      ("lava_state", "vesicle_fraction_2")]
  | "variable" => [("lava_state", "vesicle_fraction"), ("lava_state", "vesicle_coef")]
  | "variable_bimodal" => [("lava_state", "critical_distance"), ("lava_state", "vesicle_fraction"),
      ("lava_state", "vesicle_coef")]
  | "poly" => [("lava_state", "vesicle_fraction"), ("lava_state", "vesicle_poly_a"), ("lava_state", "vesicle_poly_b")]
  | _ => []

/-- Numbers a melt-viscosity model needs. -/
def meltReq : String → List Req
  | "basic" => [("eruption_condition", "viscosity_eruption"), ("eruption_condition", "eruption_temperature")]
  | "shaw" => [("melt_viscosity_parameters", "shaw_slope")]
  | "vft" => [("melt_viscosity_parameters", "a_vft"), ("melt_viscosity_parameters", "b_vft"),
      ("melt_viscosity_parameters", "c_vft")]
  | _ => []

/-- Numbers a relative-viscosity model needs. -/
def relReq : String → List Req
  | "kd" => [("relative_viscosity_parameters", "max_packing"), ("relative_viscosity_parameters", "einstein_coef")]
  | "mp" => [("relative_viscosity_parameters", "max_packing")]
  | "mp_mueller" => [("relative_viscosity_parameters", "crystal_aspect_ratio")]
  | "mader" => [("relative_viscosity_parameters", "crystal_aspect_ratio")]
  | "bll" => [("relative_viscosity_parameters", "max_packing"), ("relative_viscosity_parameters", "Bsolid"),
      ("relative_viscosity_parameters", "Bgas"), ("relative_viscosity_parameters", "vesicle_radius"),
      ("relative_viscosity_parameters", "surface_tension"), ("relative_viscosity_parameters", "crit_packing")]
  | "costa1" => [("relative_viscosity_parameters", "strain_rate")]
  | "costa2" => [("relative_viscosity_parameters", "strain_rate")]
  | _ => []

/-- Numbers a bubble model needs. -/
def bubReq : String → List Req
  | "mader" => [("relative_viscosity_parameters", "vesicle_radius"), ("relative_viscosity_parameters", "surface_tension")]
  | _ => []

/-- Numbers a yield-strength model needs. -/
def yldReq : String → List Req
  | "dragoni" => [("lava_state", "liquidus_temperature"), ("eruption_condition", "eruption_temperature")]
  | "dragoni-alone" => [("lava_state", "liquidus_temperature"), ("eruption_condition", "eruption_temperature")]
  | _ => [("eruption_condition", "eruption_temperature")]

/-- Numbers the lava needs, whatever the models (max_packing is required even by models that do not use it). -/
def lavaReq : List Req :=
  [("eruption_condition", "eruption_temperature"), ("thermal_parameters", "buffer"),
   ("crystals_parameters", "latent_heat_of_crystallization"), ("lava_state", "density_dre"),
   ("relative_viscosity_parameters", "max_packing")]

/-- Numbers an effective-cover model needs. -/
def coverReq : String → List Req
  | "basic" => [("thermal_parameters", "alpha"), ("thermal_parameters", "crust_cover_fraction")]
  | "bimodal" => [("lava_state", "critical_distance"), ("thermal_parameters", "alpha_1"),
      ("thermal_parameters", "alpha_2"), ("thermal_parameters", "crust_cover_fraction"),
      ("thermal_parameters", "crust_cover_fraction_2")]
  | _ => []

/-- Numbers a crust-temperature model needs. -/
def crustReq : String → List Req
  | "bimodal" => [("lava_state", "critical_distance"), ("thermal_parameters", "crust_temperature_1"),
      ("thermal_parameters", "crust_temperature_2")]
  | _ => [("thermal_parameters", "crust_temperature")]

/-- Numbers the radiation flux needs. -/
def radReq : String → List Req
  | "basic" => [("radiation_parameters", "stefan-boltzmann_sigma"), ("radiation_parameters", "emissivity_epsilon")]
  | "2_emi" => [("radiation_parameters", "stefan-boltzmann_sigma"), ("radiation_parameters", "epsilon_crust"),
      ("radiation_parameters", "epsilon_hot")]
  | "cont" => [("radiation_parameters", "stefan-boltzmann_sigma")]
  | "lin_emi" => [("radiation_parameters", "stefan-boltzmann_sigma")]
  | _ => []

/-- Entries needed only when a switch is on. -/
def ifYes (s : String) (l : List Req) : List Req := if s = "yes" then l else []

/-- All numbers the selected models need. -/
def requiredNumbers (c : Choice) : List Req :=
  crystReq c.cryst ++ airReq ++ vesReq c.ves ++ meltReq c.melt ++ relReq c.rel ++ bubReq c.bub ++
  yldReq c.yld ++ lavaReq ++ coverReq c.cover ++ crustReq c.crust ++ radReq c.radiation ++
  ifYes c.conduction [("conduction_parameters", "basal_temperature"), ("conduction_parameters", "core_base_distance")] ++
  ifYes c.rain [("rain_parameters", "rainfall_rate"), ("rain_parameters", "density_water"),
    ("rain_parameters", "latent_heat_vaporization")] ++
  ifYes c.snyder [("convection_parameters", "air_temperature")]

end PyFlowGo.Spec
