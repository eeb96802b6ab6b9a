import Verif.Model.Json
import Verif.Model.Integrator
/-
  pyflowgo/flowgo_model_factory.py and the `read_initial_condition_from_json_file` methods it calls.
  Class construction and the `assert isinstance` lines cannot fail for the classes built here.
-/
namespace PyFlowGo
variable {α : Type} [Add α] [Sub α] [Mul α] [Neg α] [OfScientific α] [PyNum α]

/-- flowgo_model_factory.py:470-488 `_read_initial_condition_from_json_file`: the configured names (any
    JSON value; only compared with strings). -/
structure Names (α : Type) where
  cryst : Json α
  melt : Json α
  rel : Json α
  bub : Json α
  yld : Json α
  crust : Json α
  cover : Json α
  ves : Json α
  radiation : Json α
  snyder : Json α
  conduction : Json α
  convection : Json α
  rain : Json α
  viscous : Json α

omit [Add α] [Sub α] [Mul α] [Neg α] [OfScientific α] [PyNum α] in
/-- `data[section][key]`. -/
def getJ (data : Json α) (sec key : String) : Except Err (Json α) := do
  let s ← data.get sec
  s.get key

omit [Add α] [Sub α] [Mul α] [Neg α] [OfScientific α] [PyNum α] in
/-- flowgo_model_factory.py:470-488. -/
def readNames (data : Json α) : Except Err (Names α) := do
  let cryst ← getJ data "models" "crystallization_rate_model"
  let melt ← getJ data "models" "melt_viscosity_model"
  let rel ← getJ data "models" "relative_viscosity_model"
  let bub ← getJ data "models" "relative_viscosity_bubbles_model"
  let yld ← getJ data "models" "yield_strength_model"
  let crust ← getJ data "models" "crust_temperature_model"
  let cover ← getJ data "models" "effective_cover_crust_model"
  let ves ← getJ data "models" "vesicle_fraction_model"
  let radiation ← getJ data "heat_budget_models" "radiation"
  let snyder ← getJ data "heat_budget_models" "snyder"
  let conduction ← getJ data "heat_budget_models" "conduction"
  let convection ← getJ data "heat_budget_models" "convection"
  let rain ← getJ data "heat_budget_models" "rain"
  let viscous ← getJ data "heat_budget_models" "viscous_heating"
  return { cryst, melt, rel, bub, yld, crust, cover, ves, radiation, snyder, conduction, convection,
           rain, viscous }

/-- flowgo_model_factory.py:114-136 with flowgo_crystallization_rate_model_basic.py:53-60,
    bimodal.py:58-80, bimodal_f_temp.py:53-75, melts.py:55-68.  `read_crystal_from_melts` is not
    called: the spline stays `None`. -/
def buildCryst (env : Env α) (data name : Json α) : Except Err (CrystModel α) :=
  if name.isStr "basic" then do
    let f ← getF env data "lava_state" "crystal_fraction"
    let g ← getF env data "crystals_parameters" "crystals_grown_during_cooling"
    let ts ← getF env data "crystals_parameters" "solid_temperature"
    let te ← getF env data "eruption_condition" "eruption_temperature"
    return .basic f g ts te
  else if name.isStr "bimodal" then do
    requireKey data "lava_state" "critical_distance"
    requireKey data "crystals_parameters" "crystallization_rate_1"
    requireKey data "crystals_parameters" "crystallization_rate_2"
    let f ← getF env data "lava_state" "crystal_fraction"
    let d ← getF env data "lava_state" "critical_distance"
    let r1 ← getF env data "crystals_parameters" "crystallization_rate_1"
    let r2 ← getF env data "crystals_parameters" "crystallization_rate_2"
    let ts ← getF env data "crystals_parameters" "solid_temperature"
    let _te ← getF env data "eruption_condition" "eruption_temperature"
    return .bimodal f d r1 r2 ts
  else if name.isStr "bimodal_f_temp" then do
    requireKey data "lava_state" "critical_temperature"
    requireKey data "crystals_parameters" "crystallization_rate_1"
    requireKey data "crystals_parameters" "crystallization_rate_2"
    let f ← getF env data "lava_state" "crystal_fraction"
    let tc ← getF env data "lava_state" "critical_temperature"
    let r1 ← getF env data "crystals_parameters" "crystallization_rate_1"
    let r2 ← getF env data "crystals_parameters" "crystallization_rate_2"
    let ts ← getF env data "crystals_parameters" "solid_temperature"
    let _te ← getF env data "eruption_condition" "eruption_temperature"
    return .bimodalFTemp f tc r1 r2 ts
  else if name.isStr "melts" then do
    let b ← data.has "melts_look-up_table"
    if b then do
      let f ← getF env data "lava_state" "crystal_fraction"
      let ts ← getF env data "crystals_parameters" "solid_temperature"
      let _te ← getF env data "eruption_condition" "eruption_temperature"
      return .melts f ts none
    else .error .valueError
  else .error .nameError

/-- flowgo_model_factory.py:141-142 with flowgo_material_air.py:33-41. -/
def buildAir (env : Env α) (data : Json α) : Except Err (Air α) := do
  let temp ← getF env data "convection_parameters" "air_temperature"
  let windSpeed ← getF env data "convection_parameters" "wind_speed"
  let ch ← getF env data "convection_parameters" "ch_air"
  let rho ← getF env data "convection_parameters" "air_density"
  let cp ← getF env data "convection_parameters" "air_specific_heat_capacity"
  return { temp, windSpeed, ch, rho, cp }

/-- flowgo_model_factory.py:147-169 with flowgo_vesicle_fraction_model_constant.py:29-33,
    bimodal.py:34-50, variable.py:50-59, variable_bimodal.py:53-66, poly.py:58-65. -/
def buildVes (env : Env α) (data name : Json α) : Except Err (VesicleModel α) :=
  if name.isStr "constant" then do
    let v ← getF env data "lava_state" "vesicle_fraction"
    return .constant v
  else if name.isStr "bimodal" then do
    requireKey data "lava_state" "critical_distance"
    requireKey data "lava_state" "vesicle_fraction_1"
    requireKey data "lava_state" "vesicle_fraction_2"
    let d ← getF env data "lava_state" "critical_distance"
    let v1 ← getF env data "lava_state" "vesicle_fraction_1"
    let v2 ← getF env data "lava_state" "vesicle_fraction_2"
    return .bimodal d v1 v2
  else if name.isStr "variable" then do
    requireKey data "lava_state" "vesicle_coef"
    let v ← getF env data "lava_state" "vesicle_fraction"
    let c ← getF env data "lava_state" "vesicle_coef"
    return .variable v c
  else if name.isStr "variable_bimodal" then do
    requireKey data "lava_state" "vesicle_coef"
    requireKey data "lava_state" "critical_distance"
    let d ← getF env data "lava_state" "critical_distance"
    let v ← getF env data "lava_state" "vesicle_fraction"
    let c ← getF env data "lava_state" "vesicle_coef"
    return .variableBimodal d v c
  else if name.isStr "poly" then do
    let v ← getF env data "lava_state" "vesicle_fraction"
    let a ← getF env data "lava_state" "vesicle_poly_a"
    let b ← getF env data "lava_state" "vesicle_poly_b"
    return .poly v a b
  else .error .nameError

/-- flowgo_model_factory.py:178-192 with flowgo_melt_viscosity_model_basic.py:56-62,
    shaw.py:56-61, vft.py:57-69. -/
def buildMelt (env : Env α) (data name : Json α) : Except Err (MeltModel α) :=
  if name.isStr "basic" then do
    let v ← getF env data "eruption_condition" "viscosity_eruption"
    let te ← getF env data "eruption_condition" "eruption_temperature"
    return .basic v te
  else if name.isStr "shaw" then do
    let s ← getF env data "melt_viscosity_parameters" "shaw_slope"
    return .shaw s
  else if name.isStr "vft" then do
    requireKey data "melt_viscosity_parameters" "a_vft"
    requireKey data "melt_viscosity_parameters" "b_vft"
    requireKey data "melt_viscosity_parameters" "c_vft"
    let a ← getF env data "melt_viscosity_parameters" "a_vft"
    let b ← getF env data "melt_viscosity_parameters" "b_vft"
    let c ← getF env data "melt_viscosity_parameters" "c_vft"
    return .vft a b c
  else .error .nameError

/-- flowgo_model_factory.py:197-239 with the readers kd.py:59-63, mp.py:36-41,
    mp_mueller2010.py:45-50, mader.py:57-62, bll.py:99-120, costa1.py:54-58, costa2.py:53-57
    (er.py:60-62 and ptp1-3.py:44-47 read nothing). -/
def buildRel (env : Env α) (data name : Json α) (ves : VesicleModel α) (melt : MeltModel α) :
    Except Err (RelModel α) :=
  let sec := "relative_viscosity_parameters"
  if name.isStr "er" then .ok .er
  else if name.isStr "kd" then do
    let pm ← getF env data sec "max_packing"
    let be ← getF env data sec "einstein_coef"
    return .kd pm be
  else if name.isStr "mp" then do
    requireKey data sec "max_packing"
    let pm ← getF env data sec "max_packing"
    return .mp pm
  else if name.isStr "mp_mueller" then do
    requireKey data sec "crystal_aspect_ratio"
    let rp ← getF env data sec "crystal_aspect_ratio"
    return .mpMueller rp
  else if name.isStr "mader" then do
    requireKey data sec "crystal_aspect_ratio"
    let rp ← getF env data sec "crystal_aspect_ratio"
    return .mader rp
  else if name.isStr "bll" then do
    requireKey data sec "max_packing"
    requireKey data sec "Bsolid"
    requireKey data sec "Bgas"
    requireKey data sec "vesicle_radius"
    requireKey data sec "surface_tension"
    requireKey data sec "crit_packing"
    let pm ← getF env data sec "max_packing"
    let bs ← getF env data sec "Bsolid"
    let bg ← getF env data sec "Bgas"
    let r ← getF env data sec "vesicle_radius"
    let t ← getF env data sec "surface_tension"
    let pc ← getF env data sec "crit_packing"
    return .bll pm bs bg r t pc ves melt
  else if name.isStr "ptp1" then .ok (.ptp1 ves)
  else if name.isStr "ptp2" then .ok (.ptp2 ves)
  else if name.isStr "ptp3" then .ok (.ptp3 ves)
  else if name.isStr "costa1" then do
    let p ← getF env data sec "strain_rate"
    return .costa1 p
  else if name.isStr "costa2" then do
    let p ← getF env data sec "strain_rate"
    return .costa2 p
  else .error .nameError

/-- flowgo_model_factory.py:244-275 with the reader mader.py:70-80 (the other three read nothing). -/
def buildBub (env : Env α) (data name : Json α) (ves : VesicleModel α) (melt : MeltModel α)
    (rel : RelModel α) : Except Err (BubModel α) :=
  if name.isStr "rigid" then .ok (.rigid ves)
  else if name.isStr "deformable" then .ok (.defo ves)
  else if name.isStr "no" then .ok .no
  else if name.isStr "mader" then do
    requireKey data "relative_viscosity_parameters" "vesicle_radius"
    requireKey data "relative_viscosity_parameters" "surface_tension"
    let r ← getF env data "relative_viscosity_parameters" "vesicle_radius"
    let t ← getF env data "relative_viscosity_parameters" "surface_tension"
    return .mader r t ves melt rel
  else .error .nameError

/-- flowgo_model_factory.py:280-297 with the readers basic.py:32-36, dragoni.py:33-38,
    dragoni_alone.py:54-59, ryerson.py:58-62, bll.py:67-71. The bll class is built without a vesicle
    model and takes its default (flowgo_yield_strength_model_bll.py:59-65). -/
def buildYield (env : Env α) (data name : Json α) : Except Err (YieldModel α) :=
  if name.isStr "basic" then do
    let te ← getF env data "eruption_condition" "eruption_temperature"
    return .basic te
  else if name.isStr "dragoni" then do
    let tl ← getF env data "lava_state" "liquidus_temperature"
    let _te ← getF env data "eruption_condition" "eruption_temperature"
    return .dragoni tl
  else if name.isStr "dragoni-alone" then do
    let tl ← getF env data "lava_state" "liquidus_temperature"
    let _te ← getF env data "eruption_condition" "eruption_temperature"
    return .dragoniAlone tl
  else if name.isStr "ryerson" then do
    let _te ← getF env data "eruption_condition" "eruption_temperature"
    return .ryerson
  else if name.isStr "bll" then do
    let _te ← getF env data "eruption_condition" "eruption_temperature"
    return .bll .dflt
  else .error .nameError

/-- flowgo_model_factory.py:302-309 with flowgo_material_lava.py:68-75. -/
def buildLava (env : Env α) (data : Json α) (melt : MeltModel α) (rel : RelModel α) (bub : BubModel α)
    (yld : YieldModel α) (ves : VesicleModel α) : Except Err (Lava α) := do
  let eruptionT ← getF env data "eruption_condition" "eruption_temperature"
  let buffer ← getF env data "thermal_parameters" "buffer"
  let latentHeat ← getF env data "crystals_parameters" "latent_heat_of_crystallization"
  let densityDre ← getF env data "lava_state" "density_dre"
  let _maxPacking ← getF env data "relative_viscosity_parameters" "max_packing"
  return { eruptionT, buffer, latentHeat, densityDre, melt, rel, bub, yld, ves }

/-- flowgo_model_factory.py:314-326 with flowgo_effective_cover_crust_model_basic.py:70-75 and
    bimodal.py:76-94. -/
def buildCover (env : Env α) (data name : Json α) : Except Err (CoverModel α) :=
  if name.isStr "basic" then do
    let a ← getF env data "thermal_parameters" "alpha"
    let f ← getF env data "thermal_parameters" "crust_cover_fraction"
    return .basic a f
  else if name.isStr "bimodal" then do
    requireKey data "lava_state" "critical_distance"
    requireKey data "thermal_parameters" "alpha_1"
    requireKey data "thermal_parameters" "alpha_2"
    let d ← getF env data "lava_state" "critical_distance"
    let a1 ← getF env data "thermal_parameters" "alpha_1"
    let a2 ← getF env data "thermal_parameters" "alpha_2"
    let f1 ← getF env data "thermal_parameters" "crust_cover_fraction"
    let f2 ← getF env data "thermal_parameters" "crust_cover_fraction_2"
    return .bimodal d a1 a2 f1 f2
  else .error .nameError

/-- flowgo_model_factory.py:331-353 with flowgo_crust_temperature_model_constant.py:45-48,
    hon.py:70-74, bimodal.py:79-98, field.py:55-81.  The field model reads the hard-coded file
    `resources/crust_temperature_profile.txt`, whatever the configuration names. -/
def buildCrust (env : Env α) (data name : Json α) : Except Err (CrustModel α) :=
  if name.isStr "constant" then do
    let t ← getF env data "thermal_parameters" "crust_temperature"
    return .constant t
  else if name.isStr "hon" then do
    let _t ← getF env data "thermal_parameters" "crust_temperature"
    return .hon
  else if name.isStr "bimodal" then do
    requireKey data "lava_state" "critical_distance"
    requireKey data "thermal_parameters" "crust_temperature_1"
    requireKey data "thermal_parameters" "crust_temperature_2"
    let d ← getF env data "lava_state" "critical_distance"
    let _t1 ← getF env data "thermal_parameters" "crust_temperature_1"
    let t2 ← getF env data "thermal_parameters" "crust_temperature_2"
    return .honBimodal d t2
  else if name.isStr "field" then
    match env.crustFile "resources/crust_temperature_profile.txt" with
    | none => .error .fileNotFound
    | some rows => do
      let sp ← readCrustField rows
      requireKey data "thermal_parameters" "crust_temperature_file"
      let t ← getF env data "thermal_parameters" "crust_temperature"
      return .field t (some sp)
  else .error .nameError

/-- Which heat-flux classes are instantiated and appended. -/
inductive FluxKind where
  | radBasic | radTwoEmi | radCont | radLin | conduction | convection | rain | viscous | snyder
  deriving DecidableEq, Repr

omit [Add α] [Sub α] [Mul α] [Neg α] [OfScientific α] [PyNum α] in
/-- flowgo_model_factory.py:360-396: the radiation flux. -/
def selectRadiation (name : Json α) : Except Err (List FluxKind) :=
  if name.isStr "basic" then .ok [.radBasic]
  else if name.isStr "2_emi" then .ok [.radTwoEmi]
  else if name.isStr "cont" then .ok [.radCont]
  else if name.isStr "lin_emi" then .ok [.radLin]
  else if name.isStr "no" then .ok []
  else .error .nameError

omit [Add α] [Sub α] [Mul α] [Neg α] [OfScientific α] [PyNum α] in
/-- flowgo_model_factory.py:398-433: a flux switched by "yes" / "no" (conduction, convection, rain,
    viscous heating). -/
def selectSwitch (name : Json α) (k : FluxKind) : Except Err (List FluxKind) :=
  if name.isStr "yes" then .ok [k]
  else if name.isStr "no" then .ok []
  else .error .nameError

omit [Add α] [Sub α] [Mul α] [Neg α] [OfScientific α] [PyNum α] in
/-- flowgo_model_factory.py:435-448: snyder, only without convection and radiation. -/
def selectSnyder (n : Names α) : Except Err (List FluxKind) :=
  if n.snyder.isStr "yes" && n.convection.isStr "no" && n.radiation.isStr "no" then .ok [.snyder]
  else if n.snyder.isStr "no" then .ok []
  else .error .nameError

omit [Add α] [Sub α] [Mul α] [Neg α] [OfScientific α] [PyNum α] in
/-- flowgo_model_factory.py:360-448: the flux objects appended, in order. -/
def selectFluxes (n : Names α) : Except Err (List FluxKind) := do
  let rad ← selectRadiation n.radiation
  let cond ← selectSwitch n.conduction .conduction
  let conv ← selectSwitch n.convection .convection
  let rain ← selectSwitch n.rain .rain
  let visc ← selectSwitch n.viscous .viscous
  let sny ← selectSnyder n
  return rad ++ cond ++ conv ++ rain ++ visc ++ sny

/-- flowgo_heat_budget.py:34-37 with the readers of the flux classes: flowgo_flux_radiation_heat.py:44-49,
    emissivity.py:57-63, emissivity_cont.py:63-67, lin_emi.py:56-60, conduction.py:70-75,
    rain.py:36-42, snyder.py:50-54 (convection.py:67-70 and viscous_heating.py:37-40 read nothing). -/
def readFlux (env : Env α) (data : Json α) : FluxKind → Except Err (Flux α)
  | .radBasic => do
    let s ← getF env data "radiation_parameters" "stefan-boltzmann_sigma"
    let e ← getF env data "radiation_parameters" "emissivity_epsilon"
    return .radBasic s e
  | .radTwoEmi => do
    let s ← getF env data "radiation_parameters" "stefan-boltzmann_sigma"
    let e1 ← getF env data "radiation_parameters" "epsilon_crust"
    let e2 ← getF env data "radiation_parameters" "epsilon_hot"
    return .radTwoEmi s e1 e2
  | .radCont => do
    let s ← getF env data "radiation_parameters" "stefan-boltzmann_sigma"
    return .radCont s
  | .radLin => do
    let s ← getF env data "radiation_parameters" "stefan-boltzmann_sigma"
    return .radLin s
  | .conduction => do
    let b ← getF env data "conduction_parameters" "basal_temperature"
    let c ← getF env data "conduction_parameters" "core_base_distance"
    return .conduction b c
  | .convection => .ok .convection
  | .rain => do
    let r ← getF env data "rain_parameters" "rainfall_rate"
    let d ← getF env data "rain_parameters" "density_water"
    let l ← getF env data "rain_parameters" "latent_heat_vaporization"
    return .rain r d l
  | .viscous => .ok .viscous
  | .snyder => do
    let _t ← getF env data "convection_parameters" "air_temperature"
    return .snyder

/-- flowgo_model_factory.py:92-450, the constructor of `FlowgoModelFactory`, in program order. -/
def factory (env : Env α) (data : Json α) : Except Err (Models α) := do
  let n ← readNames data
  let cryst ← buildCryst env data n.cryst
  let air ← buildAir env data
  let ves ← buildVes env data n.ves
  let melt ← buildMelt env data n.melt
  let rel ← buildRel env data n.rel ves melt
  let bub ← buildBub env data n.bub ves melt rel
  let yld ← buildYield env data n.yld
  let lava ← buildLava env data melt rel bub yld ves
  let cover ← buildCover env data n.cover
  let crust ← buildCrust env data n.crust
  let kinds ← selectFluxes n
  let fluxes ← kinds.mapM (readFlux env data)
  return { lava, air, crust, cover, cryst, fluxes }

/-- `value is True`. -/
def isTrue : Json α → Bool
  | .bool true => true
  | _ => false

/-- flowgo_terrain_condition.py:69-72: the number of points is read only if smoothing is on; otherwise it
    is -1. -/
def readSmoothingPoints (env : Env α) (data : Json α) (smoothing : Bool) : Except Err α :=
  if smoothing then getF env data "terrain_conditions" "slope_smoothing_number_of_points" else .ok (-1.0)

/-- flowgo_terrain_condition.py:44-72: the terrain read from JSON, before the slope file.
    `slope_smoothing_active` must be the JSON constant `true` (`is True`). -/
def buildTerrain (env : Env α) (data : Json α) : Except Err (Terrain α) := do
  let e ← data.get "effusion_rate_init"
  let effusionRateInit ← e.toFloat env
  let depth ← getF env data "terrain_conditions" "depth"
  let width ← getF env data "terrain_conditions" "width"
  let gravity ← getF env data "terrain_conditions" "gravity"
  let maxLength ← getF env data "terrain_conditions" "max_channel_length"
  let act ← getJ data "terrain_conditions" "slope_smoothing_active"
  let smoothing := isTrue act
  let smoothingPoints ← readSmoothingPoints env data smoothing
  let defaultSlope ← radians 2.657414
  return { effusionRateInit, depth, width, gravity, defaultSlope, spline := none, maxLength,
           smoothing, smoothingPoints }

end PyFlowGo
