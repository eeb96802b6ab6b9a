import Verif.Spec.RunConfigSpec
/-
  The entries of a configuration file a run may look at, given the names of the models it selects.
-/
namespace PyFlowGo.Spec
variable {α : Type}

/-- The entries naming the models. -/
def nameEntries : List Req :=
  [("models", "crystallization_rate_model"), ("models", "melt_viscosity_model"), ("models", "relative_viscosity_model"),
   ("models", "relative_viscosity_bubbles_model"), ("models", "yield_strength_model"), ("models", "crust_temperature_model"),
   ("models", "effective_cover_crust_model"), ("models", "vesicle_fraction_model"),
   ("heat_budget_models", "radiation"), ("heat_budget_models", "snyder"), ("heat_budget_models", "conduction"),
   ("heat_budget_models", "convection"), ("heat_budget_models", "rain"), ("heat_budget_models", "viscous_heating")]

/-- The entries describing the channel and the place and time of the vent. -/
def channelEntries : List Req :=
  [("terrain_conditions", "depth"), ("terrain_conditions", "width"), ("terrain_conditions", "gravity"),
   ("terrain_conditions", "max_channel_length"), ("terrain_conditions", "slope_smoothing_active"),
   ("terrain_conditions", "slope_smoothing_number_of_points"), ("lava_state", "position"), ("lava_state", "time")]

/-- Numbers that have to be there although the selected models make no use of them: the packing limit for the relative-viscosity
    models without one, the crust temperature for the Hon model and the first crust temperature for the bimodal one. -/
def idleNumbers (c : Choice) : List Req :=
  (if c.rel = "kd" ∨ c.rel = "mp" ∨ c.rel = "bll" then [] else [("relative_viscosity_parameters", "max_packing")]) ++
  (if c.crust = "hon" then [("thermal_parameters", "crust_temperature")] else []) ++
  (if c.crust = "bimodal" then [("thermal_parameters", "crust_temperature_1")] else [])

/-- Everything a run with these models makes use of, apart from the switch `mass_conservation`. -/
def usedEntries (c : Choice) : List Req :=
  nameEntries ++ channelEntries ++ (requiredNumbers c).filter fun e => decide (e ∉ idleNumbers c)

/-- The entries outside the sections a run makes use of. -/
def usedTop : List String := ["effusion_rate_init", "lava_name", "slope_file", "step_size"]

/-- Two configurations with the same used entries, `mass_conservation` left aside; entries that only have to be there are there in
    both or in neither. -/
structure SameEntries [OfScientific α] [PyNum α] (env : Env α) (c : Choice) (d d' : Json α) : Prop where
  entry : ∀ e ∈ usedEntries c, ∀ v, EntryAt d e.1 e.2 v ↔ EntryAt d' e.1 e.2 v
  top : ∀ k ∈ usedTop, ∀ v, TopEntry d k v ↔ TopEntry d' k v
  idle : ∀ e ∈ idleNumbers c, (∃ x, NumberAt env d e.1 e.2 x) ↔ ∃ x, NumberAt env d' e.1 e.2 x
  table : c.cryst = "melts" → ((∃ v, TopEntry d "melts_look-up_table" v) ↔ ∃ v, TopEntry d' "melts_look-up_table" v)
  profile : c.crust = "field" → ((∃ v, EntryAt d "thermal_parameters" "crust_temperature_file" v) ↔
    ∃ v, EntryAt d' "thermal_parameters" "crust_temperature_file" v)

/-- The two entries that say when a run is cut off and what the clock shows at the vent. -/
def cutEntries : List Req := [("terrain_conditions", "max_channel_length"), ("lava_state", "time")]

/-- Two configurations as in `SameEntries`, but for the length of the channel and the time at the vent, which may differ. -/
structure SameButCut [OfScientific α] [PyNum α] (env : Env α) (c : Choice) (d d' : Json α) : Prop where
  entry : ∀ e ∈ usedEntries c, e ∉ cutEntries → ∀ v, EntryAt d e.1 e.2 v ↔ EntryAt d' e.1 e.2 v
  top : ∀ k ∈ usedTop, ∀ v, TopEntry d k v ↔ TopEntry d' k v
  idle : ∀ e ∈ idleNumbers c, (∃ x, NumberAt env d e.1 e.2 x) ↔ ∃ x, NumberAt env d' e.1 e.2 x
  table : c.cryst = "melts" → ((∃ v, TopEntry d "melts_look-up_table" v) ↔ ∃ v, TopEntry d' "melts_look-up_table" v)
  profile : c.crust = "field" → ((∃ v, EntryAt d "thermal_parameters" "crust_temperature_file" v) ↔
    ∃ v, EntryAt d' "thermal_parameters" "crust_temperature_file" v)

/-- Two configurations that give the models the same entries. -/
structure SameModels [OfScientific α] [PyNum α] (env : Env α) (c : Choice) (d d' : Json α) : Prop where
  entry : ∀ e ∈ usedEntries c, e ∉ channelEntries → ∀ v, EntryAt d e.1 e.2 v ↔ EntryAt d' e.1 e.2 v
  idle : ∀ e ∈ idleNumbers c, (∃ x, NumberAt env d e.1 e.2 x) ↔ ∃ x, NumberAt env d' e.1 e.2 x
  table : c.cryst = "melts" → ((∃ v, TopEntry d "melts_look-up_table" v) ↔ ∃ v, TopEntry d' "melts_look-up_table" v)
  profile : c.crust = "field" → ((∃ v, EntryAt d "thermal_parameters" "crust_temperature_file" v) ↔
    ∃ v, EntryAt d' "thermal_parameters" "crust_temperature_file" v)

/-- Two configurations as in `SameEntries`, but for the effusion rate and the depth of the channel, which may differ. -/
structure SameButSupply [OfScientific α] [PyNum α] (env : Env α) (c : Choice) (d d' : Json α) : Prop where
  entry : ∀ e ∈ usedEntries c, e ≠ ("terrain_conditions", "depth") → ∀ v, EntryAt d e.1 e.2 v ↔ EntryAt d' e.1 e.2 v
  top : ∀ k ∈ usedTop, k ≠ "effusion_rate_init" → ∀ v, TopEntry d k v ↔ TopEntry d' k v
  idle : ∀ e ∈ idleNumbers c, (∃ x, NumberAt env d e.1 e.2 x) ↔ ∃ x, NumberAt env d' e.1 e.2 x
  table : c.cryst = "melts" → ((∃ v, TopEntry d "melts_look-up_table" v) ↔ ∃ v, TopEntry d' "melts_look-up_table" v)
  profile : c.crust = "field" → ((∃ v, EntryAt d "thermal_parameters" "crust_temperature_file" v) ↔
    ∃ v, EntryAt d' "thermal_parameters" "crust_temperature_file" v)

/-- The effusion rate of a configuration. -/
def RateIs [OfScientific α] [PyNum α] (env : Env α) (d : Json α) (r : α) : Prop :=
  ∃ v, TopEntry d "effusion_rate_init" v ∧ v.toFloat env = .ok r

/-- Two configurations with the same switch `mass_conservation`. -/
def SameSwitch (d d' : Json α) : Prop :=
  ∀ v, EntryAt d "terrain_conditions" "mass_conservation" v ↔ EntryAt d' "terrain_conditions" "mass_conservation" v

end PyFlowGo.Spec
