import Verif.Spec.ConfigSpec
import Verif.Spec.TerrainSpec
import Verif.Model.RealNum
/-
  Specification for C117: a configuration file like the shipped template, with numbers that make physical sense. Every line is about one entry
  of the file.
-/
namespace PyFlowGo.Spec

/-- The models of resource/template.json; any melt viscosity, any yield strength, any heat fluxes. -/
def TemplateModels (c : Choice) : Prop :=
  c.cryst = "basic" ∧ c.rel = "er" ∧ c.bub = "no" ∧ c.crust = "constant" ∧ c.cover = "basic" ∧ c.ves = "constant"

/-- The number in an entry of the file, if there is one, satisfies a condition. -/
def EntryHolds (env : Env ℝ) (data : Json ℝ) (sec key : String) (p : ℝ → Prop) : Prop := ∀ x, NumberAt env data sec key x → p x

/-- Numbers that make physical sense. -/
structure Physical (env : Env ℝ) (data : Json ℝ) : Prop where
  step : ∀ v x, TopEntry data "step_size" v → v.toFloat env = .ok x → 0 < x
  depth : EntryHolds env data "terrain_conditions" "depth" (0 < ·)
  width : EntryHolds env data "terrain_conditions" "width" (0 < ·)
  gravity : EntryHolds env data "terrain_conditions" "gravity" (0 < ·)
  density : EntryHolds env data "lava_state" "density_dre" (0 < ·)
  vesicles : EntryHolds env data "lava_state" "vesicle_fraction" fun v => 0 ≤ v ∧ v < 1
  crystals : EntryHolds env data "lava_state" "crystal_fraction" fun c => 0 ≤ c ∧ 1.51 * c < 1
  latent : EntryHolds env data "crystals_parameters" "latent_heat_of_crystallization" (0 < ·)
  grown : EntryHolds env data "crystals_parameters" "crystals_grown_during_cooling" (0 < ·)
  solidus : EntryHolds env data "crystals_parameters" "solid_temperature" fun ts =>
    EntryHolds env data "eruption_condition" "eruption_temperature" fun te => ts < te
  viscosity : EntryHolds env data "eruption_condition" "viscosity_eruption" (0 < ·)
  shaw : EntryHolds env data "melt_viscosity_parameters" "shaw_slope" (0 < ·)
  vft : EntryHolds env data "melt_viscosity_parameters" "b_vft" (0 < ·)
  vftc : EntryHolds env data "melt_viscosity_parameters" "c_vft" fun c => EntryHolds env data "crystals_parameters" "solid_temperature" fun ts => c ≤ ts
  alpha : EntryHolds env data "thermal_parameters" "alpha" (· ≤ 0)
  cover : EntryHolds env data "thermal_parameters" "crust_cover_fraction" fun f => 0 ≤ f ∧ f ≤ 1
  air : EntryHolds env data "convection_parameters" "air_temperature" (0 ≤ ·)
  crust : EntryHolds env data "thermal_parameters" "crust_temperature" fun tc =>
    0 < tc ∧ EntryHolds env data "convection_parameters" "air_temperature" fun ta => ta ≤ tc
  molten : EntryHolds env data "crystals_parameters" "solid_temperature" fun ts => 0 ≤ ts ∧ EntryHolds env data "thermal_parameters" "buffer" fun b =>
    0 < ts - b ∧ EntryHolds env data "convection_parameters" "air_temperature" fun ta => ta ≤ ts - b
  ground : EntryHolds env data "conduction_parameters" "core_base_distance" (· ≠ 0)

end PyFlowGo.Spec
