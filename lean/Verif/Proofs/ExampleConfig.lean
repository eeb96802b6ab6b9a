import Verif.Proofs.InterpLemmas
import Verif.Proofs.FactoryLemmas
/-
  A configuration with every entry any model may need, used to show that hypotheses are satisfiable.
-/
set_option linter.unusedSectionVars false
namespace PyFlowGo
open Spec
variable {α : Type}

/-- Every entry that some model needs. -/
def allReq : List Req :=
  [("lava_state", "crystal_fraction"), ("lava_state", "critical_distance"), ("lava_state", "critical_temperature"),
   ("lava_state", "vesicle_fraction"), ("lava_state", "vesicle_fraction_1"), ("lava_state", "vesicle_fraction_2"),
   ("lava_state", "vesicle_coef"), ("lava_state", "vesicle_poly_a"), ("lava_state", "vesicle_poly_b"),
   ("lava_state", "liquidus_temperature"), ("lava_state", "density_dre"), ("lava_state", "position"),
   ("lava_state", "time"),
   ("crystals_parameters", "crystals_grown_during_cooling"), ("crystals_parameters", "solid_temperature"),
   ("crystals_parameters", "crystallization_rate_1"), ("crystals_parameters", "crystallization_rate_2"),
   ("crystals_parameters", "latent_heat_of_crystallization"),
   ("eruption_condition", "eruption_temperature"), ("eruption_condition", "viscosity_eruption"),
   ("melt_viscosity_parameters", "shaw_slope"), ("melt_viscosity_parameters", "a_vft"),
   ("melt_viscosity_parameters", "b_vft"), ("melt_viscosity_parameters", "c_vft"),
   ("relative_viscosity_parameters", "max_packing"), ("relative_viscosity_parameters", "einstein_coef"),
   ("relative_viscosity_parameters", "crystal_aspect_ratio"), ("relative_viscosity_parameters", "Bsolid"),
   ("relative_viscosity_parameters", "Bgas"), ("relative_viscosity_parameters", "vesicle_radius"),
   ("relative_viscosity_parameters", "surface_tension"), ("relative_viscosity_parameters", "crit_packing"),
   ("relative_viscosity_parameters", "strain_rate"),
   ("thermal_parameters", "buffer"), ("thermal_parameters", "alpha"), ("thermal_parameters", "alpha_1"),
   ("thermal_parameters", "alpha_2"), ("thermal_parameters", "crust_cover_fraction"),
   ("thermal_parameters", "crust_cover_fraction_2"), ("thermal_parameters", "crust_temperature"),
   ("thermal_parameters", "crust_temperature_1"), ("thermal_parameters", "crust_temperature_2"),
   ("convection_parameters", "air_temperature"), ("convection_parameters", "wind_speed"),
   ("convection_parameters", "ch_air"), ("convection_parameters", "air_density"),
   ("convection_parameters", "air_specific_heat_capacity"),
   ("radiation_parameters", "stefan-boltzmann_sigma"), ("radiation_parameters", "emissivity_epsilon"),
   ("radiation_parameters", "epsilon_crust"), ("radiation_parameters", "epsilon_hot"),
   ("conduction_parameters", "basal_temperature"), ("conduction_parameters", "core_base_distance"),
   ("rain_parameters", "rainfall_rate"), ("rain_parameters", "density_water"),
   ("rain_parameters", "latent_heat_vaporization"),
   ("terrain_conditions", "depth"), ("terrain_conditions", "width"), ("terrain_conditions", "gravity"),
   ("terrain_conditions", "max_channel_length")]

/-- The numeric entries of one section. -/
def exSection (num : String → String → α) (sec : String) : List (String × Json α) :=
  (allReq.filter (fun r => r.1 == sec)).map (fun r => (r.2, .num (num r.1 r.2)))

/-- The example configuration: the effusion rate `rate`, the names of `c`, the numbers of `num` and further entries
    `extra` of the section `terrain_conditions`. -/
def exConfigM (extra : List (String × Json α)) (rate : Json α) (num : String → String → α) (c : Choice) : Json α :=
  .obj
    [("lava_name", .str "example"), ("slope_file", .str "slope.txt"), ("step_size", .num (num "" "step_size")),
     ("effusion_rate_init", rate), ("melts_look-up_table", .str "melts.txt"),
     ("models", .obj [("crystallization_rate_model", .str c.cryst), ("melt_viscosity_model", .str c.melt),
       ("relative_viscosity_model", .str c.rel), ("relative_viscosity_bubbles_model", .str c.bub),
       ("yield_strength_model", .str c.yld), ("crust_temperature_model", .str c.crust),
       ("effective_cover_crust_model", .str c.cover), ("vesicle_fraction_model", .str c.ves)]),
     ("heat_budget_models", .obj [("radiation", .str c.radiation), ("snyder", .str c.snyder),
       ("conduction", .str c.conduction), ("convection", .str c.convection), ("rain", .str c.rain),
       ("viscous_heating", .str c.viscous)]),
     ("lava_state", .obj (exSection num "lava_state")),
     ("crystals_parameters", .obj (exSection num "crystals_parameters")),
     ("eruption_condition", .obj (exSection num "eruption_condition")),
     ("melt_viscosity_parameters", .obj (exSection num "melt_viscosity_parameters")),
     ("relative_viscosity_parameters", .obj (exSection num "relative_viscosity_parameters")),
     ("thermal_parameters", .obj (("crust_temperature_file", .str "crust.txt") :: exSection num "thermal_parameters")),
     ("convection_parameters", .obj (exSection num "convection_parameters")),
     ("radiation_parameters", .obj (exSection num "radiation_parameters")),
     ("conduction_parameters", .obj (exSection num "conduction_parameters")),
     ("rain_parameters", .obj (exSection num "rain_parameters")),
     ("terrain_conditions", .obj (("slope_smoothing_active", .bool false) :: exSection num "terrain_conditions" ++ extra))]

/-- Without further entries. -/
abbrev exConfigR (rate : Json α) (num : String → String → α) (c : Choice) : Json α := exConfigM [] rate num c

/-- With the effusion rate of `num`. -/
abbrev exConfig (num : String → String → α) (c : Choice) : Json α :=
  exConfigR (.num (num "" "effusion_rate_init")) num c

theorem exConfig_selects {extra : List (String × Json α)} {rate : Json α} (num : String → String → α) (c : Choice) : Selects (exConfigM extra rate num c) c := by
  refine ⟨?_, ?_, ?_, ?_, ?_, ?_, ?_, ?_, ?_, ?_, ?_, ?_, ?_, ?_⟩ <;> exact ⟨_, _, rfl, rfl, rfl⟩

section
variable [OfScientific α] [PyNum α]
theorem exConfig_number {extra : List (String × Json α)} {rate : Json α} (env : Env α) (num : String → String → α) (c : Choice) :
    ∀ e ∈ allReq, NumberAt env (exConfigM extra rate num c) e.1 e.2 (num e.1 e.2) := by
  unfold allReq
  simp only [List.forall_mem_cons, List.not_mem_nil, false_implies, implies_true, and_true]
  repeat' constructor
end

theorem required_subset (c : Choice) : ∀ e ∈ requiredNumbers c, e ∈ allReq := by
  unfold requiredNumbers
  simp only [List.forall_mem_append]
  refine ⟨⟨⟨⟨⟨⟨⟨⟨⟨⟨⟨⟨⟨?_, ?_⟩, ?_⟩, ?_⟩, ?_⟩, ?_⟩, ?_⟩, ?_⟩, ?_⟩, ?_⟩, ?_⟩, ?_⟩, ?_⟩, ?_⟩
  · unfold crystReq; split <;> decide
  · decide
  · unfold vesReq; split <;> decide
  · unfold meltReq; split <;> decide
  · unfold relReq; split <;> decide
  · unfold bubReq; split <;> decide
  · unfold yldReq; split <;> decide
  · decide
  · unfold coverReq; split <;> decide
  · unfold crustReq; split <;> decide
  · unfold radReq; split <;> decide
  · unfold ifYes; split <;> decide
  · unfold ifYes; split <;> decide
  · unfold ifYes; split <;> decide

/-- An environment with a slope file (vertical channel, 2 km) and a crust-temperature file. -/
noncomputable def exEnv : Env ℝ :=
  { parseFloat := fun _ => none, showNum := fun _ => "x", showOther := fun _ => "y",
    slopeFile := fun _ => some [⟨0, 0, 0, 0, 90⟩, ⟨0, 0, 0, 2000, 90⟩],
    crustFile := fun _ => some [(0, 500), (1000, 400)], canon := id }

theorem exConfig_tables {rate : Json ℝ} (num : String → String → ℝ) (c : Choice) :
    TablesPresent exEnv (exConfigR rate num c) c := by
  refine ⟨fun _ => ⟨_, _, rfl, rfl⟩, fun _ => ⟨⟨_, _, _, rfl, rfl, rfl⟩, _, ⟨_⟩, rfl, (make_ok_iff _ _ _).mpr ⟨rfl, by simp, ?_, rfl⟩⟩⟩
  simp [Ascending]

/-- Names for the examples. -/
def exChoice : Choice :=
  { cryst := "basic", melt := "basic", rel := "er", bub := "no", yld := "ryerson", crust := "constant",
    cover := "basic", ves := "constant", radiation := "no", snyder := "no", conduction := "no",
    convection := "no", rain := "yes", viscous := "no" }

end PyFlowGo
