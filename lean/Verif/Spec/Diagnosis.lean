import Verif.Model.Run
/-
  Specification for C115: what goes wrong with a configuration, and in which order it is noticed. Nothing here uses the readers of
  the model: the checks are written on the JSON value itself.
-/
namespace PyFlowGo.Spec
variable {α : Type}

/-- The exception of `data[section][key]`, if there is one: KeyError when something is missing, TypeError when something that is
    not an object is subscripted with a string. -/
def entryError (data : Json α) (sec key : String) : Option Err :=
  match data with
  | .obj top => match lookup top sec with
    | none => some .keyError
    | some (.obj inner) => if (lookup inner key).isSome then none else some .keyError
    | some _ => some .typeError
  | _ => some .typeError

/-- The exception of `float(v)`. -/
def floatError (env : Env α) : Json α → Option Err
  | .str s => if (env.parseFloat s).isSome then none else some .valueError
  | .null => some .typeError
  | .arr _ => some .typeError
  | .obj _ => some .typeError
  | .bool _ => none
  | .int _ => none
  | .num _ => none

/-- The exception of `float(data[section][key])`. -/
def numberError (env : Env α) (data : Json α) (sec key : String) : Option Err :=
  match data with
  | .obj top => match lookup top sec with
    | none => some .keyError
    | some (.obj inner) => match lookup inner key with
      | none => some .keyError
      | some v => floatError env v
    | some _ => some .typeError
  | _ => some .typeError

/-- The exception of `if key not in v: raise ValueError(…)`: for an object the key must be there, for a list or a text Python looks for
    an element or for a piece of the text, for anything else `in` is a TypeError. -/
def containsError (v : Json α) (key : String) : Option Err :=
  match v with
  | .obj l => if (lookup l key).isSome then none else some .valueError
  | .arr l => if l.any (fun x => x.isStr key) then none else some .valueError
  | .str s => if key.toList <:+: s.toList then none else some .valueError
  | _ => some .typeError

/-- The exception of `if key not in data[section]: raise ValueError(…)`. -/
def presentError (data : Json α) (sec key : String) : Option Err :=
  match data with
  | .obj top => match lookup top sec with
    | none => some .keyError
    | some v => containsError v key
  | _ => some .typeError

/-- The value at `data[sec][key]`. -/
def entryValue (data : Json α) (sec key : String) : Option (Json α) :=
  match data with
  | .obj top => match lookup top sec with
    | some (.obj inner) => lookup inner key
    | _ => none
  | _ => none

/-- One thing the readers require. -/
inductive Check where
  /-- `float(data[sec][key])` -/
  | number (sec key : String)
  /-- `data[sec][key]`, any value -/
  | entry (sec key : String)
  /-- `if key not in data[sec]: raise ValueError` -/
  | present (sec key : String)
  /-- `if key not in data: raise ValueError` -/
  | presentTop (key : String)
  /-- `data[key]` -/
  | top (key : String)
  /-- `float(data[key])` -/
  | numberTop (key : String)
  /-- `data[sec].get(…)`: AttributeError when it is not an object -/
  | section (sec : String)
  /-- `float(data[sec][key])`, only if `data[sec][flag] is True` -/
  | numberIf (sec flag key : String)
  /-- the crust-temperature profile: it must open and be readable -/
  | crustProfile

/-- The exception of one check on a configuration; `none`: it passes. -/
def Check.error [Add α] [Sub α] [Mul α] [Neg α] [OfScientific α] [PyNum α] (env : Env α) (data : Json α) : Check → Option Err
  | .number sec key => numberError env data sec key
  | .entry sec key => entryError data sec key
  | .present sec key => presentError data sec key
  | .presentTop key => containsError data key
  | .top key => match data with
    | .obj l => if (lookup l key).isSome then none else some .keyError
    | _ => some .typeError
  | .numberTop key => match data with
    | .obj l => match lookup l key with
      | none => some .keyError
      | some v => floatError env v
    | _ => some .typeError
  | .section sec => match data with
    | .obj l => match lookup l sec with
      | none => some .keyError
      | some (.obj _) => none
      | some _ => some .attributeError
    | _ => some .typeError
  | .numberIf sec flag key => match entryValue data sec flag with
    | some (.bool true) => numberError env data sec key
    | _ => none
  | .crustProfile => match env.crustFile "resources/crust_temperature_profile.txt" with
    | none => some .fileNotFound
    | some rows => match readCrustField rows with
      | .ok _ => none
      | .error e => some e

/-- The text at `data[sec][key]`, if it is one. -/
def textAt (data : Json α) (sec key : String) : Option String :=
  match entryValue data sec key with
  | some (.str s) => some s
  | _ => none

/-- A step of the diagnosis: a check; a name that must be one of the listed ones, each followed by its own checks; or the rule for
    Snyder's flux. -/
inductive Item where
  | check (c : Check)
  | choice (sec key : String) (options : List (String × List Check))
  | snyder

/-- The exception of an item. A name that is not listed is a NameError. -/
def Item.error [Add α] [Sub α] [Mul α] [Neg α] [OfScientific α] [PyNum α] (env : Env α) (data : Json α) : Item → Option Err
  | .check c => c.error env data
  | .choice sec key options => match textAt data sec key with
    | none => some .nameError
    | some s => match options.find? (fun o => o.1 = s) with
      | none => some .nameError
      | some o => o.2.findSome? (Check.error env data)
  | .snyder =>
    if textAt data "heat_budget_models" "snyder" = some "no" ∨
      textAt data "heat_budget_models" "snyder" = some "yes" ∧ textAt data "heat_budget_models" "convection" = some "no" ∧
        textAt data "heat_budget_models" "radiation" = some "no" then none else some .nameError

/-- The first exception of a list of items. -/
def diagnosis [Add α] [Sub α] [Mul α] [Neg α] [OfScientific α] [PyNum α] (env : Env α) (data : Json α) (items : List Item) : Option Err :=
  items.findSome? (Item.error env data)

/-- The names of the models, all of which must be there. -/
def nameItems : List Item :=
  (["crystallization_rate_model", "melt_viscosity_model", "relative_viscosity_model", "relative_viscosity_bubbles_model",
    "yield_strength_model", "crust_temperature_model", "effective_cover_crust_model", "vesicle_fraction_model"].map
      fun k => .check (.entry "models" k)) ++
  (["radiation", "snyder", "conduction", "convection", "rain", "viscous_heating"].map fun k => .check (.entry "heat_budget_models" k))

def numbers (sec : String) (keys : List String) : List Check := keys.map (Check.number sec)

/-- Crystallization rate. -/
def crystItem : Item :=
  .choice "models" "crystallization_rate_model"
    [("basic", [.number "lava_state" "crystal_fraction", .number "crystals_parameters" "crystals_grown_during_cooling",
        .number "crystals_parameters" "solid_temperature", .number "eruption_condition" "eruption_temperature"]),
     ("bimodal", [.present "lava_state" "critical_distance", .present "crystals_parameters" "crystallization_rate_1",
        .present "crystals_parameters" "crystallization_rate_2", .number "lava_state" "crystal_fraction",
        .number "lava_state" "critical_distance", .number "crystals_parameters" "crystallization_rate_1",
        .number "crystals_parameters" "crystallization_rate_2", .number "crystals_parameters" "solid_temperature",
        .number "eruption_condition" "eruption_temperature"]),
     ("bimodal_f_temp", [.present "lava_state" "critical_temperature", .present "crystals_parameters" "crystallization_rate_1",
        .present "crystals_parameters" "crystallization_rate_2", .number "lava_state" "crystal_fraction",
        .number "lava_state" "critical_temperature", .number "crystals_parameters" "crystallization_rate_1",
        .number "crystals_parameters" "crystallization_rate_2", .number "crystals_parameters" "solid_temperature",
        .number "eruption_condition" "eruption_temperature"]),
     ("melts", [.presentTop "melts_look-up_table", .number "lava_state" "crystal_fraction",
        .number "crystals_parameters" "solid_temperature", .number "eruption_condition" "eruption_temperature"])]

/-- Air. -/
def airItems : List Item :=
  (numbers "convection_parameters" ["air_temperature", "wind_speed", "ch_air", "air_density", "air_specific_heat_capacity"]).map .check

/-- Vesicle fraction. -/
def vesicleItem : Item :=
  .choice "models" "vesicle_fraction_model"
    [("constant", [.number "lava_state" "vesicle_fraction"]),
     ("bimodal", [.present "lava_state" "critical_distance", .present "lava_state" "vesicle_fraction_1", .present "lava_state" "vesicle_fraction_2",
        .number "lava_state" "critical_distance", .number "lava_state" "vesicle_fraction_1", .number "lava_state" "vesicle_fraction_2"]),
     ("variable", [.present "lava_state" "vesicle_coef", .number "lava_state" "vesicle_fraction", .number "lava_state" "vesicle_coef"]),
     ("variable_bimodal", [.present "lava_state" "vesicle_coef", .present "lava_state" "critical_distance", .number "lava_state" "critical_distance",
        .number "lava_state" "vesicle_fraction", .number "lava_state" "vesicle_coef"]),
     ("poly", [.number "lava_state" "vesicle_fraction", .number "lava_state" "vesicle_poly_a", .number "lava_state" "vesicle_poly_b"])]

/-- Viscosity of the melt. -/
def meltItem : Item :=
  .choice "models" "melt_viscosity_model"
    [("basic", [.number "eruption_condition" "viscosity_eruption", .number "eruption_condition" "eruption_temperature"]),
     ("shaw", [.number "melt_viscosity_parameters" "shaw_slope"]),
     ("vft", ["a_vft", "b_vft", "c_vft"].map (Check.present "melt_viscosity_parameters") ++
        numbers "melt_viscosity_parameters" ["a_vft", "b_vft", "c_vft"])]

/-- Relative viscosity of crystals. -/
def relativeItem : Item :=
  .choice "models" "relative_viscosity_model"
    [("er", []), ("kd", numbers "relative_viscosity_parameters" ["max_packing", "einstein_coef"]),
     ("mp", [.present "relative_viscosity_parameters" "max_packing", .number "relative_viscosity_parameters" "max_packing"]),
     ("mp_mueller", [.present "relative_viscosity_parameters" "crystal_aspect_ratio", .number "relative_viscosity_parameters" "crystal_aspect_ratio"]),
     ("mader", [.present "relative_viscosity_parameters" "crystal_aspect_ratio", .number "relative_viscosity_parameters" "crystal_aspect_ratio"]),
     ("bll", ["max_packing", "Bsolid", "Bgas", "vesicle_radius", "surface_tension", "crit_packing"].map (Check.present "relative_viscosity_parameters") ++
        numbers "relative_viscosity_parameters" ["max_packing", "Bsolid", "Bgas", "vesicle_radius", "surface_tension", "crit_packing"]),
     ("ptp1", []), ("ptp2", []), ("ptp3", []),
     ("costa1", [.number "relative_viscosity_parameters" "strain_rate"]),
     ("costa2", [.number "relative_viscosity_parameters" "strain_rate"])]

/-- Relative viscosity of bubbles. -/
def bubblesItem : Item :=
  .choice "models" "relative_viscosity_bubbles_model"
    [("rigid", []), ("deformable", []), ("no", []),
     ("mader", [.present "relative_viscosity_parameters" "vesicle_radius", .present "relative_viscosity_parameters" "surface_tension",
        .number "relative_viscosity_parameters" "vesicle_radius", .number "relative_viscosity_parameters" "surface_tension"])]

/-- Yield strength. -/
def yieldItem : Item :=
  .choice "models" "yield_strength_model"
    [("basic", [.number "eruption_condition" "eruption_temperature"]),
     ("dragoni", [.number "lava_state" "liquidus_temperature", .number "eruption_condition" "eruption_temperature"]),
     ("dragoni-alone", [.number "lava_state" "liquidus_temperature", .number "eruption_condition" "eruption_temperature"]),
     ("ryerson", [.number "eruption_condition" "eruption_temperature"]),
     ("bll", [.number "eruption_condition" "eruption_temperature"])]

/-- Lava. -/
def lavaItems : List Item :=
  [.check (.number "eruption_condition" "eruption_temperature"), .check (.number "thermal_parameters" "buffer"),
   .check (.number "crystals_parameters" "latent_heat_of_crystallization"), .check (.number "lava_state" "density_dre"),
   .check (.number "relative_viscosity_parameters" "max_packing")]

/-- Crust cover. -/
def coverItem : Item :=
  .choice "models" "effective_cover_crust_model"
    [("basic", numbers "thermal_parameters" ["alpha", "crust_cover_fraction"]),
     ("bimodal", [.present "lava_state" "critical_distance", .present "thermal_parameters" "alpha_1", .present "thermal_parameters" "alpha_2",
        .number "lava_state" "critical_distance", .number "thermal_parameters" "alpha_1", .number "thermal_parameters" "alpha_2",
        .number "thermal_parameters" "crust_cover_fraction", .number "thermal_parameters" "crust_cover_fraction_2"])]

/-- Crust temperature. -/
def crustItem : Item :=
  .choice "models" "crust_temperature_model"
    [("constant", [.number "thermal_parameters" "crust_temperature"]), ("hon", [.number "thermal_parameters" "crust_temperature"]),
     ("bimodal", [.present "lava_state" "critical_distance", .present "thermal_parameters" "crust_temperature_1",
        .present "thermal_parameters" "crust_temperature_2", .number "lava_state" "critical_distance",
        .number "thermal_parameters" "crust_temperature_1", .number "thermal_parameters" "crust_temperature_2"]),
     ("field", [.crustProfile, .present "thermal_parameters" "crust_temperature_file", .number "thermal_parameters" "crust_temperature"])]

/-- Heat fluxes: first all the switches, then the parameters of those that are on. -/
def fluxItems : List Item :=
  [.choice "heat_budget_models" "radiation" [("basic", []), ("2_emi", []), ("cont", []), ("lin_emi", []), ("no", [])],
   .choice "heat_budget_models" "conduction" [("yes", []), ("no", [])],
   .choice "heat_budget_models" "convection" [("yes", []), ("no", [])],
   .choice "heat_budget_models" "rain" [("yes", []), ("no", [])],
   .choice "heat_budget_models" "viscous_heating" [("yes", []), ("no", [])],
   .snyder,
   .choice "heat_budget_models" "radiation"
     [("basic", numbers "radiation_parameters" ["stefan-boltzmann_sigma", "emissivity_epsilon"]),
      ("2_emi", numbers "radiation_parameters" ["stefan-boltzmann_sigma", "epsilon_crust", "epsilon_hot"]),
      ("cont", numbers "radiation_parameters" ["stefan-boltzmann_sigma"]), ("lin_emi", numbers "radiation_parameters" ["stefan-boltzmann_sigma"]),
      ("no", [])],
   .choice "heat_budget_models" "conduction" [("yes", numbers "conduction_parameters" ["basal_temperature", "core_base_distance"]), ("no", [])],
   .choice "heat_budget_models" "rain" [("yes", numbers "rain_parameters" ["rainfall_rate", "density_water", "latent_heat_vaporization"]), ("no", [])],
   .choice "heat_budget_models" "snyder" [("yes", [.number "convection_parameters" "air_temperature"]), ("no", [])]]

/-- Everything `FlowgoModelFactory(configuration_file, …)` requires, in the order in which it is noticed. -/
def factoryItems : List Item :=
  nameItems ++ [crystItem] ++ airItems ++ [vesicleItem, meltItem, relativeItem, bubblesItem, yieldItem] ++ lavaItems ++
    [coverItem, crustItem] ++ fluxItems

/-- What `RunFlowgo.run` requires before it opens the slope profile, in the order in which it is noticed. -/
def runItems : List Item :=
  ([Check.top "effusion_rate_init", .presentTop "lava_name", .presentTop "slope_file", .presentTop "step_size", .numberTop "step_size",
    .section "terrain_conditions", .numberTop "effusion_rate_init"] ++
   numbers "terrain_conditions" ["depth", "width", "gravity", "max_channel_length"] ++
   [Check.entry "terrain_conditions" "slope_smoothing_active",
    .numberIf "terrain_conditions" "slope_smoothing_active" "slope_smoothing_number_of_points"]).map .check

/-- What it requires after the models: where and when the flow starts. -/
def stateItems : List Item := [.check (.number "lava_state" "position"), .check (.number "lava_state" "time")]

end PyFlowGo.Spec
