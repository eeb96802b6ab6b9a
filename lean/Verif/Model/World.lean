import Verif.Model.Lava
import Verif.Model.Crystal
import Verif.Model.CrustTemp
import Verif.Model.Logger
/-
  The mutable world of one simulation: the lava state object, the terrain object (its depth is
  mutable), the singleton log and the fields of the integrator.
-/
namespace PyFlowGo
variable {α : Type}

/-- A value stored in the log: a number, or the text `str(x)` of a number
    (flowgo_integrator.py:176 logs `str(self.effusion_rate)`). -/
inductive Cell (α : Type) where
  | num (x : α)
  | text (x : α)
  deriving Repr

/-- Python `==` on logged values: numbers by value, a string never equals a number. Two texts are
    identified through the numbers they render (never exercised: positions are numbers). -/
instance [PyNum α] : BEq (Cell α) where
  beq
    | .num a, .num b => eqB a b
    | .text a, .text b => eqB a b
    | _, _ => false

/-- flowgo_material_air.py:24-41 `FlowGoMaterialAir`. -/
structure Air (α : Type) where
  temp : α
  windSpeed : α
  ch : α
  rho : α
  cp : α
  deriving Repr

/-- flowgo_material_air.py:43-45 `compute_conv_heat_transfer_coef`. -/
def Air.convCoef [Mul α] (a : Air α) : α := a.ch * a.rho * a.cp * a.windSpeed

/-- The two effective-cover classes. -/
inductive CoverModel (α : Type) where
  /-- flowgo_effective_cover_crust_model_basic.py:63-75 -/
  | basic (alpha coverFraction : α)
  /-- flowgo_effective_cover_crust_model_bimodal.py:60-94 -/
  | bimodal (criticalDistance alpha1 alpha2 cover1 cover2 : α)
  deriving Repr

/-- The flux classes. -/
inductive Flux (α : Type) where
  /-- flowgo_flux_radiation_heat.py:34-49 -/
  | radBasic (sigma epsilon : α)
  /-- flowgo_flux_radiation_heat_emissivity.py:45-63 -/
  | radTwoEmi (sigma epsilon1 epsilon2 : α)
  /-- flowgo_flux_radiation_heat_emissivity_cont.py:53-67 -/
  | radCont (sigma : α)
  /-- flowgo_flux_radiation_heat_lin_emi.py:46-60 -/
  | radLin (sigma : α)
  /-- flowgo_flux_conduction_heat.py:64-75 -/
  | conduction (baseT coreBaseDistance : α)
  /-- flowgo_flux_forced_convection_heat.py:27-33 -/
  | convection
  /-- flowgo_flux_heat_loss_rain.py:31-42 -/
  | rain (rate densityWater latentVap : α)
  /-- flowgo_flux_viscous_heating.py:26-28 -/
  | viscous
  /-- flowgo_flux_snyder2002fig4_heat.py:40-54 (the air temperature read there is unused) -/
  | snyder
  deriving Repr

/-- The objects wired together by the factory. The fluxes and the cover model hold references to the
    same lava, air, crust and cover objects (flowgo_model_factory.py:302-443). -/
structure Models (α : Type) where
  lava : Lava α
  air : Air α
  crust : CrustModel α
  cover : CoverModel α
  cryst : CrystModel α
  fluxes : List (Flux α)
  deriving Repr

/-- Everything that a run mutates. -/
structure World (α : Type) where
  /-- the `FlowGoState` object -/
  st : FlowState α
  /-- the terrain object; only its depth changes -/
  terrain : Terrain α
  /-- the singleton log -/
  log : Log (Cell α)
  /-- flowgo_integrator.py:36 `effusion_rate` -/
  effusionRate : α
  /-- `flux_rate`: no such attribute until flowgo_integrator.py:60 runs -/
  fluxRate : Option α
  /-- flowgo_integrator.py:37 `iteration` (a float counting 0., 1., ...) -/
  iteration : Nat
  /-- flowgo_integrator.py:35 `_has_finished` -/
  finished : Bool
  deriving Repr

variable [Add α] [Sub α] [Mul α] [Neg α] [OfScientific α] [PyNum α]

/-- `logger.add_variable(name, state.get_current_position(), value)`. -/
def logCell (name : String) (v : Cell α) : PyM (World α) Unit :=
  PyM.modify fun w => { w with log := w.log.addVariable name (.num w.st.pos) v }

/-- Logging a number. -/
def logNum (name : String) (v : α) : PyM (World α) Unit := logCell name (.num v)

/-- `material_lava.compute_mean_velocity(state, terrain)` as called on the shared state object:
    on success the strain rate is stored (flowgo_material_lava.py:169), on failure nothing changes. -/
def meanVelocityM (l : Lava α) : PyM (World α) α := fun w =>
  match l.meanVelocity w.terrain w.st with
  | .ok (v, strain) => (.ok v, { w with st := { w.st with strain := strain } })
  | .error e => (.error e, w)

end PyFlowGo
