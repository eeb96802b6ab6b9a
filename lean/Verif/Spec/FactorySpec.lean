import Verif.Spec.ConfigSpec
import Verif.Model.Factory
/-
  Which object a documented name stands for, with every parameter taken from the named entry of the
  configuration.  (Entries read but not used by the model are required all the same.)
-/
namespace PyFlowGo.Spec
variable {α : Type} [Add α] [Sub α] [Mul α] [Neg α] [OfScientific α] [PyNum α]

/-- Crystallisation-rate models. The melts model never gets its table. -/
def CrystFrom (env : Env α) (data : Json α) (s : String) (m : CrystModel α) : Prop :=
  match s with
  | "basic" => ∃ f g ts te, NumberAt env data "lava_state" "crystal_fraction" f ∧
      NumberAt env data "crystals_parameters" "crystals_grown_during_cooling" g ∧
      NumberAt env data "crystals_parameters" "solid_temperature" ts ∧
      NumberAt env data "eruption_condition" "eruption_temperature" te ∧
      m = .basic f g ts te
  | "bimodal" => ∃ f d r1 r2 ts te, NumberAt env data "lava_state" "crystal_fraction" f ∧
      NumberAt env data "lava_state" "critical_distance" d ∧
      NumberAt env data "crystals_parameters" "crystallization_rate_1" r1 ∧
      NumberAt env data "crystals_parameters" "crystallization_rate_2" r2 ∧
      NumberAt env data "crystals_parameters" "solid_temperature" ts ∧
      NumberAt env data "eruption_condition" "eruption_temperature" te ∧
      m = .bimodal f d r1 r2 ts
  | "bimodal_f_temp" => ∃ f tc r1 r2 ts te, NumberAt env data "lava_state" "crystal_fraction" f ∧
      NumberAt env data "lava_state" "critical_temperature" tc ∧
      NumberAt env data "crystals_parameters" "crystallization_rate_1" r1 ∧
      NumberAt env data "crystals_parameters" "crystallization_rate_2" r2 ∧
      NumberAt env data "crystals_parameters" "solid_temperature" ts ∧
      NumberAt env data "eruption_condition" "eruption_temperature" te ∧
      m = .bimodalFTemp f tc r1 r2 ts
  | "melts" => ∃ f ts te, NumberAt env data "lava_state" "crystal_fraction" f ∧
      NumberAt env data "crystals_parameters" "solid_temperature" ts ∧
      NumberAt env data "eruption_condition" "eruption_temperature" te ∧
      (∃ v, TopEntry data "melts_look-up_table" v) ∧
      m = .melts f ts none
  | _ => False

/-- The air. -/
def AirFrom (env : Env α) (data : Json α) (a : Air α) : Prop :=
  NumberAt env data "convection_parameters" "air_temperature" a.temp ∧
  NumberAt env data "convection_parameters" "wind_speed" a.windSpeed ∧
  NumberAt env data "convection_parameters" "ch_air" a.ch ∧
  NumberAt env data "convection_parameters" "air_density" a.rho ∧
  NumberAt env data "convection_parameters" "air_specific_heat_capacity" a.cp

/-- Vesicle-fraction models. -/
def VesFrom (env : Env α) (data : Json α) (s : String) (m : VesicleModel α) : Prop :=
  match s with
  | "constant" => ∃ v, NumberAt env data "lava_state" "vesicle_fraction" v ∧
      m = .constant v
  | "bimodal" => ∃ d v1 v2, NumberAt env data "lava_state" "critical_distance" d ∧
      NumberAt env data "lava_state" "vesicle_fraction_1" v1 ∧
      NumberAt env data "lava_state" "vesicle_fraction_2" v2 ∧
      m = .bimodal d v1 v2
  | "variable" => ∃ v c, NumberAt env data "lava_state" "vesicle_fraction" v ∧
      NumberAt env data "lava_state" "vesicle_coef" c ∧
      m = .variable v c
  | "variable_bimodal" => ∃ d v c, NumberAt env data "lava_state" "critical_distance" d ∧
      NumberAt env data "lava_state" "vesicle_fraction" v ∧
      NumberAt env data "lava_state" "vesicle_coef" c ∧
      m = .variableBimodal d v c
  | "poly" => ∃ v a b, NumberAt env data "lava_state" "vesicle_fraction" v ∧
      NumberAt env data "lava_state" "vesicle_poly_a" a ∧
      NumberAt env data "lava_state" "vesicle_poly_b" b ∧
      m = .poly v a b
  | _ => False

/-- Melt-viscosity models. -/
def MeltFrom (env : Env α) (data : Json α) (s : String) (m : MeltModel α) : Prop :=
  match s with
  | "basic" => ∃ v te, NumberAt env data "eruption_condition" "viscosity_eruption" v ∧
      NumberAt env data "eruption_condition" "eruption_temperature" te ∧
      m = .basic v te
  | "shaw" => ∃ sl, NumberAt env data "melt_viscosity_parameters" "shaw_slope" sl ∧
      m = .shaw sl
  | "vft" => ∃ a b c, NumberAt env data "melt_viscosity_parameters" "a_vft" a ∧
      NumberAt env data "melt_viscosity_parameters" "b_vft" b ∧
      NumberAt env data "melt_viscosity_parameters" "c_vft" c ∧
      m = .vft a b c
  | _ => False

/-- Relative-viscosity models; the three-phase ones hold the configured vesicle and melt models. -/
def RelFrom (env : Env α) (data : Json α) (ves : VesicleModel α) (melt : MeltModel α) (s : String) (m : RelModel α) : Prop :=
  match s with
  | "er" => m = .er
  | "kd" => ∃ pm be, NumberAt env data "relative_viscosity_parameters" "max_packing" pm ∧
      NumberAt env data "relative_viscosity_parameters" "einstein_coef" be ∧
      m = .kd pm be
  | "mp" => ∃ pm, NumberAt env data "relative_viscosity_parameters" "max_packing" pm ∧
      m = .mp pm
  | "mp_mueller" => ∃ rp, NumberAt env data "relative_viscosity_parameters" "crystal_aspect_ratio" rp ∧
      m = .mpMueller rp
  | "mader" => ∃ rp, NumberAt env data "relative_viscosity_parameters" "crystal_aspect_ratio" rp ∧
      m = .mader rp
  | "bll" => ∃ pm bs bg r t pc, NumberAt env data "relative_viscosity_parameters" "max_packing" pm ∧
      NumberAt env data "relative_viscosity_parameters" "Bsolid" bs ∧
      NumberAt env data "relative_viscosity_parameters" "Bgas" bg ∧
      NumberAt env data "relative_viscosity_parameters" "vesicle_radius" r ∧
      NumberAt env data "relative_viscosity_parameters" "surface_tension" t ∧
      NumberAt env data "relative_viscosity_parameters" "crit_packing" pc ∧
      m = .bll pm bs bg r t pc ves melt
  | "ptp1" => m = .ptp1 ves
  | "ptp2" => m = .ptp2 ves
  | "ptp3" => m = .ptp3 ves
  | "costa1" => ∃ p, NumberAt env data "relative_viscosity_parameters" "strain_rate" p ∧
      m = .costa1 p
  | "costa2" => ∃ p, NumberAt env data "relative_viscosity_parameters" "strain_rate" p ∧
      m = .costa2 p
  | _ => False

/-- Bubble models; they hold the configured vesicle, melt and relative-viscosity models. -/
def BubFrom (env : Env α) (data : Json α) (ves : VesicleModel α) (melt : MeltModel α) (rel : RelModel α) (s : String) (m : BubModel α) : Prop :=
  match s with
  | "rigid" => m = .rigid ves
  | "deformable" => m = .defo ves
  | "no" => m = .no
  | "mader" => ∃ r t, NumberAt env data "relative_viscosity_parameters" "vesicle_radius" r ∧
      NumberAt env data "relative_viscosity_parameters" "surface_tension" t ∧
      m = .mader r t ves melt rel
  | _ => False

/-- Yield-strength models. The bll one holds the default vesicle model. -/
def YieldFrom (env : Env α) (data : Json α) (s : String) (m : YieldModel α) : Prop :=
  match s with
  | "basic" => ∃ te, NumberAt env data "eruption_condition" "eruption_temperature" te ∧
      m = .basic te
  | "dragoni" => ∃ tl te, NumberAt env data "lava_state" "liquidus_temperature" tl ∧
      NumberAt env data "eruption_condition" "eruption_temperature" te ∧
      m = .dragoni tl
  | "dragoni-alone" => ∃ tl te, NumberAt env data "lava_state" "liquidus_temperature" tl ∧
      NumberAt env data "eruption_condition" "eruption_temperature" te ∧
      m = .dragoniAlone tl
  | "ryerson" => ∃ te, NumberAt env data "eruption_condition" "eruption_temperature" te ∧
      m = .ryerson
  | "bll" => ∃ te, NumberAt env data "eruption_condition" "eruption_temperature" te ∧
      m = .bll .dflt
  | _ => False

/-- Effective-cover models. -/
def CoverFrom (env : Env α) (data : Json α) (s : String) (m : CoverModel α) : Prop :=
  match s with
  | "basic" => ∃ a f, NumberAt env data "thermal_parameters" "alpha" a ∧
      NumberAt env data "thermal_parameters" "crust_cover_fraction" f ∧
      m = .basic a f
  | "bimodal" => ∃ d a1 a2 f1 f2, NumberAt env data "lava_state" "critical_distance" d ∧
      NumberAt env data "thermal_parameters" "alpha_1" a1 ∧
      NumberAt env data "thermal_parameters" "alpha_2" a2 ∧
      NumberAt env data "thermal_parameters" "crust_cover_fraction" f1 ∧
      NumberAt env data "thermal_parameters" "crust_cover_fraction_2" f2 ∧
      m = .bimodal d a1 a2 f1 f2
  | _ => False

/-- Crust-temperature models. The field one reads a fixed file; the configured file name only has to be there. -/
def CrustFrom (env : Env α) (data : Json α) (s : String) (m : CrustModel α) : Prop :=
  match s with
  | "constant" => ∃ t, NumberAt env data "thermal_parameters" "crust_temperature" t ∧
      m = .constant t
  | "hon" => ∃ t, NumberAt env data "thermal_parameters" "crust_temperature" t ∧
      m = .hon
  | "bimodal" => ∃ d t1 t2, NumberAt env data "lava_state" "critical_distance" d ∧
      NumberAt env data "thermal_parameters" "crust_temperature_1" t1 ∧
      NumberAt env data "thermal_parameters" "crust_temperature_2" t2 ∧
      m = .honBimodal d t2
  | "field" => ∃ rows sp v t, env.crustFile "resources/crust_temperature_profile.txt" = some rows ∧
      readCrustField rows = .ok sp ∧
      EntryAt data "thermal_parameters" "crust_temperature_file" v ∧
      NumberAt env data "thermal_parameters" "crust_temperature" t ∧
      m = .field t (some sp)
  | _ => False

/-- The lava: its own numbers from the configuration and the configured sub-models. -/
def LavaFrom (env : Env α) (data : Json α) (c : Choice) (l : Lava α) : Prop :=
  MeltFrom env data c.melt l.melt ∧ VesFrom env data c.ves l.ves ∧
  RelFrom env data l.ves l.melt c.rel l.rel ∧ BubFrom env data l.ves l.melt l.rel c.bub l.bub ∧
  YieldFrom env data c.yld l.yld ∧
  NumberAt env data "eruption_condition" "eruption_temperature" l.eruptionT ∧
  NumberAt env data "thermal_parameters" "buffer" l.buffer ∧
  NumberAt env data "crystals_parameters" "latent_heat_of_crystallization" l.latentHeat ∧
  NumberAt env data "lava_state" "density_dre" l.densityDre ∧
  ∃ x, NumberAt env data "relative_viscosity_parameters" "max_packing" x

/-- The radiation flux of a name ("no": none). -/
def RadiationFrom (env : Env α) (data : Json α) (s : String) (l : List (Flux α)) : Prop :=
  match s with
  | "basic" => ∃ σ ε, NumberAt env data "radiation_parameters" "stefan-boltzmann_sigma" σ ∧
      NumberAt env data "radiation_parameters" "emissivity_epsilon" ε ∧ l = [.radBasic σ ε]
  | "2_emi" => ∃ σ ε1 ε2, NumberAt env data "radiation_parameters" "stefan-boltzmann_sigma" σ ∧
      NumberAt env data "radiation_parameters" "epsilon_crust" ε1 ∧
      NumberAt env data "radiation_parameters" "epsilon_hot" ε2 ∧ l = [.radTwoEmi σ ε1 ε2]
  | "cont" => ∃ σ, NumberAt env data "radiation_parameters" "stefan-boltzmann_sigma" σ ∧ l = [.radCont σ]
  | "lin_emi" => ∃ σ, NumberAt env data "radiation_parameters" "stefan-boltzmann_sigma" σ ∧ l = [.radLin σ]
  | "no" => l = []
  | _ => False

/-- A switch: the flux if "yes", nothing if "no". -/
def SwitchFrom (s : String) (l : List (Flux α)) (one : Flux α → Prop) : Prop :=
  (s = "yes" ∧ ∃ f, one f ∧ l = [f]) ∨ (s = "no" ∧ l = [])

/-- The heat budget: radiation, conduction, convection, rain, viscous heating, snyder, in this order. -/
def FluxesFrom (env : Env α) (data : Json α) (c : Choice) (fluxes : List (Flux α)) : Prop :=
  ∃ rad cond conv rain visc sny, fluxes = rad ++ cond ++ conv ++ rain ++ visc ++ sny ∧
    RadiationFrom env data c.radiation rad ∧
    SwitchFrom c.conduction cond (fun f => ∃ b d, NumberAt env data "conduction_parameters" "basal_temperature" b ∧
      NumberAt env data "conduction_parameters" "core_base_distance" d ∧ f = .conduction b d) ∧
    SwitchFrom c.convection conv (fun f => f = .convection) ∧
    SwitchFrom c.rain rain (fun f => ∃ r d l, NumberAt env data "rain_parameters" "rainfall_rate" r ∧
      NumberAt env data "rain_parameters" "density_water" d ∧
      NumberAt env data "rain_parameters" "latent_heat_vaporization" l ∧ f = .rain r d l) ∧
    SwitchFrom c.viscous visc (fun f => f = .viscous) ∧
    SwitchFrom c.snyder sny (fun f => (∃ x, NumberAt env data "convection_parameters" "air_temperature" x) ∧ f = .snyder) ∧
    (c.snyder = "yes" → c.radiation = "no" ∧ c.convection = "no")

/-- Everything the factory must build for a choice of names. -/
def ModelsFrom (env : Env α) (data : Json α) (c : Choice) (m : Models α) : Prop :=
  CrystFrom env data c.cryst m.cryst ∧ AirFrom env data m.air ∧ LavaFrom env data c m.lava ∧
  CoverFrom env data c.cover m.cover ∧ CrustFrom env data c.crust m.crust ∧ FluxesFrom env data c m.fluxes

/-- Entries that only have to be present: a melts table for "melts", a file name and a readable profile for
    "field". -/
def TablesPresent (env : Env α) (data : Json α) (c : Choice) : Prop :=
  (c.cryst = "melts" → ∃ v, TopEntry data "melts_look-up_table" v) ∧
  (c.crust = "field" → (∃ v, EntryAt data "thermal_parameters" "crust_temperature_file" v) ∧
    ∃ rows sp, env.crustFile "resources/crust_temperature_profile.txt" = some rows ∧ readCrustField rows = .ok sp)

/-- The kind of a flux. -/
def kindOf : Flux α → FluxKind
  | .radBasic _ _ => .radBasic
  | .radTwoEmi _ _ _ => .radTwoEmi
  | .radCont _ => .radCont
  | .radLin _ => .radLin
  | .conduction _ _ => .conduction
  | .convection => .convection
  | .rain _ _ _ => .rain
  | .viscous => .viscous
  | .snyder => .snyder

/-- The radiation flux of a name. -/
def radiationKind : String → List FluxKind
  | "basic" => [.radBasic]
  | "2_emi" => [.radTwoEmi]
  | "cont" => [.radCont]
  | "lin_emi" => [.radLin]
  | _ => []

/-- The fluxes the user asked for, in the order of the documentation. -/
def requestedFluxes (c : Choice) : List FluxKind :=
  radiationKind c.radiation ++
  (if c.conduction = "yes" then [.conduction] else []) ++
  (if c.convection = "yes" then [.convection] else []) ++
  (if c.rain = "yes" then [.rain] else []) ++
  (if c.viscous = "yes" then [.viscous] else []) ++
  (if c.snyder = "yes" then [.snyder] else [])

end PyFlowGo.Spec
