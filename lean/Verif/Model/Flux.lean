import Verif.Model.Cover
/-
  pyflowgo/flowgo_flux_*.py and pyflowgo/flowgo_heat_budget.py
-/
namespace PyFlowGo
variable {α : Type} [Add α] [Sub α] [Mul α] [Neg α] [OfScientific α] [PyNum α]

/-- `crust_temperature_model.compute_crust_temperature(state)`. -/
def crustTemperature (m : Models α) : PyM (World α) α := fun w => (m.crust.temperature w.st, w)

/-- `material_lava.computes_molten_material_temperature(state)`. -/
def moltenTemperature (m : Models α) : PyM (World α) α := fun w => (.ok (m.lava.moltenTemperature w.st), w)

/-- The expression of flowgo_flux_radiation_heat.py:67-69 (identical in emissivity.py:83-86,
    emissivity_cont.py:96-99, lin_emi.py:80-83). -/
def effectiveRadiationFormula (f tcrust tmolten tair : α) : Except Err α :=
  PyNum.mpow (f * (PyNum.npow tcrust 4 - PyNum.npow tair 4)
    + (1.0 - f) * (PyNum.npow tmolten 4 - PyNum.npow tair 4)) 0.25

/-- `_compute_effective_radiation_temperature`: flowgo_flux_radiation_heat.py:51-73,
    emissivity.py:65-90, emissivity_cont.py:81-103, lin_emi.py:62-87. -/
def effectiveRadiationTemperature (m : Models α) : PyM (World α) α := do
  let f ← effectiveCover m
  let tc ← crustTemperature m
  let tm ← moltenTemperature m
  let te ← PyM.lift (effectiveRadiationFormula f tc tm m.air.temp)
  logNum "effective_radiation_temperature" te
  return te

/-- emissivity_cont.py:72 and 77-78. -/
def emissivityCont (t : α) : α := 0.474709 + t * 0.000719320 + PyNum.npow t 2 * (-0.000000340085)

/-- lin_emi.py:91, 96 and 105. -/
def emissivityLin (t : α) : α := 1.0463014 + t * (-0.000148144)

/-- One Planck term `C1*lamda**(-5)/(exp(C2/(lamda*T))-1)`: flowgo_flux_radiation_heat.py:101-115 and
    its copies; the powers of ten are written as literals. -/
def planck (t : α) : Except Err α := do
  let lamda : α := 0.8675 * 1e-6
  let h : α := 6.6256 * 1e-34
  let c : α := 2.9979 * 1e8
  let c1 := 2.0 * PyNum.pi * h * PyNum.npow c 2
  let kapa : α := 1.38 * 1e-23
  let c2 ← PyNum.div (h * c) kapa
  let l5 ← PyNum.pow lamda (-5.0)
  let x ← PyNum.div c2 (lamda * t)
  PyNum.div (c1 * l5) (PyNum.exp x - 1.0)

/-- The arithmetic of `_compute_spectral_radiance`: flowgo_flux_radiation_heat.py:84-123,
    emissivity.py:105-144, emissivity_cont.py:121-164, lin_emi.py:116-162; the pixel size and the two
    emissivities differ. -/
def spectralRadianceFormula (lpixel f tcrust tmolten epsMolten epsCrust width : α) : Except Err α := do
  let aPixel := lpixel * lpixel
  let aLava := lpixel * width
  let phot ← PyNum.div (aLava * (1.0 - f)) aPixel
  let pcrust ← PyNum.div (aLava * f) aPixel
  let bc ← planck tcrust
  let bm ← planck tmolten
  let bb ← planck 258.0
  return 0.8 * (epsMolten * phot * bm + epsCrust * pcrust * bc
    + (1.0 - phot - pcrust) * 0.1 * bb) * 1e-6

/-- `_compute_spectral_radiance` including its calls and its log entry. -/
def spectralRadiance (m : Models α) (lpixel : α) (eps : α → α → α × α) (width : α) :
    PyM (World α) Unit := do
  let f ← effectiveCover m
  let tc ← crustTemperature m
  let tm ← moltenTemperature m
  let r ← PyM.lift (spectralRadianceFormula lpixel f tc tm (eps tc tm).1 (eps tc tm).2 width)
  logNum "spectral_radiance" r

/-- `compute_flux` of the four radiation classes: flowgo_flux_radiation_heat.py:129-140 (and 75-78),
    emissivity.py:150-160 (and 92-99), emissivity_cont.py:170-180 (and 105-115),
    lin_emi.py:169-180 (and 100-109).  -/
def radiationFlux (m : Models α) (sigma : α) (epsilon : PyM (World α) α) (lpixel : α)
    (eps : α → α → α × α) (width : α) : PyM (World α) α := do
  let te ← effectiveRadiationTemperature m
  let e ← epsilon
  logNum "epsilon_effective" e
  spectralRadiance m lpixel eps width
  return sigma * e * PyNum.npow te 4 * width

/-- The expression of flowgo_flux_forced_convection_heat.py:40-42. -/
def characteristicFormula (f tcrust tmolten : α) : Except Err α := do
  let a ← PyNum.pow tcrust 1.333
  let b ← PyNum.pow tmolten 1.333
  PyNum.mpow (f * a + (1.0 - f) * b) 0.75

/-- `flux.compute_flux(state, channel_width, channel_depth)`. -/
def Flux.compute (m : Models α) (width depth : α) : Flux α → PyM (World α) α
  | .radBasic sigma eps => radiationFlux m sigma (pure eps) 30.0 (fun _ _ => (eps, eps)) width
  | .radTwoEmi sigma e1 e2 =>
    radiationFlux m sigma (do
      let f ← effectiveCover m
      return f * e1 + (1.0 - f) * e2) 30.0 (fun _ _ => (e2, e1)) width
  | .radCont sigma =>
    radiationFlux m sigma (do
      let f ← effectiveCover m
      let tc ← crustTemperature m
      let tm ← moltenTemperature m
      return f * emissivityCont tc + (1.0 - f) * emissivityCont tm) 0.1
      (fun tc tm => (emissivityCont tm, emissivityCont tc)) width
  | .radLin sigma =>
    radiationFlux m sigma (do
      let te ← effectiveRadiationTemperature m
      return emissivityLin te) 0.1
      (fun tc tm => (emissivityLin tm, emissivityLin tc)) width
  -- flowgo_flux_conduction_heat.py:77-85
  | .conduction baseT pct => fun w => (do
      let k := PyNum.npow (1.929 - 1.554 * m.lava.vesicleFraction w.st) 2
      let p ← PyNum.div pct 100.0
      let q ← PyNum.div (w.st.temp - baseT) (p * depth)
      return k * q * width, w)
  -- flowgo_flux_forced_convection_heat.py:35-65
  | .convection => do
    let tc ← crustTemperature m
    let f ← effectiveCover m
    let tm ← moltenTemperature m
    let t ← PyM.lift (characteristicFormula f tc tm)
    logNum "characteristic_surface_temperature" t
    logNum "effective_temperature_snyder" 0.0
    logNum "flowgofluxsnyderheat" 0.0
    return m.air.convCoef * (t - m.air.temp) * width
  -- flowgo_flux_heat_loss_rain.py:44-46
  | .rain rate rho lv => pure (rate * rho * lv * width)
  -- flowgo_flux_viscous_heating.py:31-35
  | .viscous => do
    let w ← PyM.get
    let visc ← PyM.lift (m.lava.bulkViscosity w.st)
    let v ← meanVelocityM m.lava
    let q ← PyM.lift (PyNum.div v depth)
    return visc * PyNum.npow q 2 * width
  -- flowgo_flux_snyder2002fig4_heat.py:56-97
  | .snyder => do
    let tc ← crustTemperature m
    let f ← effectiveCover m
    let tm ← moltenTemperature m
    let t := f * tc + (1.0 - f) * tm
    logNum "effective_temperature_snyder" t
    let p ← PyM.lift (PyNum.pow t 4.85)
    logNum "characteristic_surface_temperature" 0.0
    logNum "effective_radiation_temperature" 0.0
    logNum "flowgofluxforcedconvectionheat" 0.0
    logNum "flowgofluxradiationheat" 0.0
    return 1.07 * 1e-13 * p * width * 1000.0

omit [Add α] [Sub α] [Mul α] [Neg α] [OfScientific α] [PyNum α] in
/-- `str(flux.__class__.__name__).lower()`, flowgo_heat_budget.py:44; the four radiation classes share
    their name. -/
def Flux.logName : Flux α → String
  | .radBasic _ _ | .radTwoEmi _ _ _ | .radCont _ | .radLin _ => "flowgofluxradiationheat"
  | .conduction _ _ => "flowgofluxconductionheat"
  | .convection => "flowgofluxforcedconvectionheat"
  | .rain _ _ _ => "flowgofluxheatlossrain"
  | .viscous => "flowgofluxviscousheating"
  | .snyder => "flowgofluxsnyderheat"

/-- The loop of flowgo_heat_budget.py:42-45: each flux is computed once for the sum and once more for
    the log. -/
def heatBudgetLoop (m : Models α) (width depth : α) : List (Flux α) → α → PyM (World α) α
  | [], acc => pure acc
  | f :: rest, acc => do
    let q ← f.compute m width depth
    let acc := acc + q
    let q2 ← f.compute m width depth
    logNum f.logName q2
    heatBudgetLoop m width depth rest acc

/-- flowgo_heat_budget.py:39-49 `compute_heat_budget`. -/
def heatBudget (m : Models α) (width depth : α) : PyM (World α) α := do
  let total ← heatBudgetLoop m width depth m.fluxes 0.0
  logNum "heat_budget" total
  return total

end PyFlowGo
