import Verif.Model.Run
import Verif.Proofs.Base
/-
  A map of worlds under which a simulation is reflected: what one integrator does in a world, another does in the image of that world.
-/
set_option linter.unusedSectionVars false
namespace PyFlowGo

/-- The second program does in the image of a world what the first does in the world itself. -/
def Commutes {α β : Type} (φ : World α → World α) (m m' : PyM (World α) β) : Prop :=
  ∀ w, m' (φ w) = ((m w).1, φ (m w).2)

/-- What `φ` has to preserve for the work of `g'` in the image of a world to be the image of the work of `g`, the first computation of the effusion rate and
    moving on left aside. -/
structure Steady {α : Type} [Add α] [Sub α] [Mul α] [Neg α] [OfScientific α] [PyNum α] (g g' : Integrator α) (φ : World α → World α) : Prop where
  dx : g'.dx = g.dx
  mass : g'.massConservation = g.massConservation
  air : g'.models.air = g.models.air
  fluxes : g'.models.fluxes = g.models.fluxes
  latent : g'.models.lava.latentHeat = g.models.lava.latentHeat
  solid : g'.models.cryst.solidTemperature = g.models.cryst.solidTemperature
  vel : Commutes φ (meanVelocityM g.models.lava) (meanVelocityM g'.models.lava)
  crust : ∀ w, g'.models.crust.temperature (φ w).st = g.models.crust.temperature w.st
  cover : ∀ w v, g'.models.cover.value (φ w).st.pos v = g.models.cover.value w.st.pos v
  molten : ∀ w, g'.models.lava.moltenTemperature (φ w).st = g.models.lava.moltenTemperature w.st
  vesicle : ∀ w, g'.models.lava.vesicleFraction (φ w).st = g.models.lava.vesicleFraction w.st
  density : ∀ w, g'.models.lava.density (φ w).st = g.models.lava.density w.st
  bulk : ∀ w, g'.models.lava.bulkViscosity (φ w).st = g.models.lava.bulkViscosity w.st
  yield_ : ∀ w, g'.models.lava.yieldStrength (φ w).st = g.models.lava.yieldStrength w.st
  basal : ∀ w, g'.models.lava.basalStress (φ w).terrain (φ w).st = g.models.lava.basalStress w.terrain w.st
  compat : ∀ w, g'.models.lava.notCompatible (φ w).st = g.models.lava.notCompatible w.st
  rate : ∀ w, g'.models.cryst.rate (φ w).st = g.models.cryst.rate w.st
  slope : ∀ w, (φ w).terrain.slope (φ w).st.pos = w.terrain.slope w.st.pos
  depth : ∀ w, (φ w).terrain.depth = w.terrain.depth
  rates : ∀ w, (φ w).effusionRate = w.effusionRate
  flux : g.massConservation = true → ∀ w, (φ w).fluxRate = w.fluxRate
  temp : ∀ w, (φ w).st.temp = w.st.temp
  crystal : ∀ w, (φ w).st.crystal = w.st.crystal
  strain : ∀ w, (φ w).st.strain = w.st.strain
  fin : ∀ w, (φ w).finished = w.finished
  length : ∀ w, leB (φ w).terrain.maxLength (φ w).st.pos = leB w.terrain.maxLength w.st.pos
  logs : ∀ n v, n ≠ "position" → Commutes φ (logCell n v) (logCell n v)
  setTime : ∀ w t, { φ w with st := { (φ w).st with time := (φ w).st.time + t } } = φ { w with st := { w.st with time := w.st.time + t } }
  setStrain : ∀ w x, { φ w with st := { (φ w).st with strain := x }, iteration := (φ w).iteration + 1 } =
    φ { w with st := { w.st with strain := x }, iteration := w.iteration + 1 }
  finish : ∀ w, { φ w with finished := true } = φ { w with finished := true }

/-- With the computation of the effusion rate. -/
structure Standing {α : Type} [Add α] [Sub α] [Mul α] [Neg α] [OfScientific α] [PyNum α] (g g' : Integrator α) (φ : World α → World α) : Prop
    extends Steady g g' φ where
  width : ∀ w, (φ w).terrain.width = w.terrain.width
  iter : ∀ w, (φ w).iteration = w.iteration
  setRate : ∀ w x, { φ w with effusionRate := x } = φ { w with effusionRate := x }

/-- With moving on: a step of `g'` in the image of a world is the image of the step of `g`. -/
structure Mirror {α : Type} [Add α] [Sub α] [Mul α] [Neg α] [OfScientific α] [PyNum α] (g g' : Integrator α) (φ : World α → World α) : Prop
    extends Standing g g' φ where
  setState : ∀ w a b, { φ w with st := { (φ w).st with crystal := a, temp := b, pos := (φ w).st.pos + g.dx } } =
    φ { w with st := { w.st with crystal := a, temp := b, pos := w.st.pos + g.dx } }

/-- `stepCompute` after the effusion rate has been set. -/
def stepRest {α : Type} [Add α] [Sub α] [Mul α] [Neg α] [OfScientific α] [PyNum α] (g : Integrator α) (v : α) : PyM (World α) (StepData α) := do
  let w ← PyM.get
  let depth := w.terrain.depth
  let density := g.models.lava.density w.st
  let width ← PyM.lift (channelWidth g.massConservation w.effusionRate w.fluxRate v depth density)
  let slope ← PyM.lift (w.terrain.slope w.st.pos)
  let heat ← heatBudget g.models width depth
  let w ← PyM.get
  let rate ← PyM.lift (g.models.cryst.rate w.st)
  let dtempDx ← PyM.lift (PyNum.div (-heat)
    (w.effusionRate * density * g.models.lava.latentHeat * rate))
  let dphiDx := dtempDx * (-rate)
  return { v := v, depth := depth, width := width, slope := slope, heat := heat, rate := rate,
           dtempDx := dtempDx, dtempDt := (-dtempDx) * v * 60.0, dphiDx := dphiDx,
           newPhi := w.st.crystal + dphiDx * g.dx,
           newTemp := w.st.temp + dtempDx * g.dx }

theorem stepCompute_rest {α : Type} [Add α] [Sub α] [Mul α] [Neg α] [OfScientific α] [PyNum α] (g : Integrator α) (v : α) :
    stepCompute g v = setEffusionRate v >>= fun _ => stepRest g v := rfl

namespace Commutes
variable {α β γ : Type} {φ : World α → World α}

theorem bind {m m' : PyM (World α) β} {f f' : β → PyM (World α) γ} (hm : Commutes φ m m') (hf : ∀ b, Commutes φ (f b) (f' b)) :
    Commutes φ (m >>= f) (m' >>= f') := by
  intro w
  have h := hm w
  rw [PyM.bind_apply, PyM.bind_apply, h]
  cases m w with
  | mk r v =>
    cases r with
    | error x => rfl
    | ok b => exact hf b v

theorem pure (b : β) : Commutes φ (Pure.pure b : PyM (World α) β) (Pure.pure b) := fun _ => rfl

theorem lift {x x' : Except Err β} (h : x' = x) : Commutes φ (PyM.lift x : PyM (World α) β) (PyM.lift x') := by
  subst h; exact fun _ => rfl

theorem bindGet {f f' : World α → PyM (World α) γ} (hf : ∀ w, Commutes φ (f w) (f' (φ w))) :
    Commutes φ (PyM.get >>= f) (PyM.get >>= f') := fun w => hf w w

theorem modify {f f' : World α → World α} (hf : ∀ w, f' (φ w) = φ (f w)) : Commutes φ (PyM.modify f) (PyM.modify f') := by
  intro w
  show (_, _) = (_, _)
  rw [hf w]
  rfl

theorem ite {m1 m2 m1' m2' : PyM (World α) β} {b b' : Bool} (h : b' = b) (h1 : Commutes φ m1 m1') (h2 : Commutes φ m2 m2') :
    Commutes φ (if b then m1 else m2) (if b' then m1' else m2') := by
  subst h
  cases b'
  · exact h2
  · exact h1

end Commutes

namespace Steady
open Commutes
variable {α : Type} [Add α] [Sub α] [Mul α] [Neg α] [OfScientific α] [PyNum α] {g g' : Integrator α} {φ : World α → World α}

theorem num (h : Steady g g' φ) (n : String) (v : α) (hn : n ≠ "position" := by decide) :
    Commutes φ (PyFlowGo.logNum n v) (PyFlowGo.logNum n v) := h.logs n _ hn

theorem name_ne (f : Flux α) : f.logName ≠ "position" := by cases f <;> simp [Flux.logName]

theorem crustM (h : Steady g g' φ) : Commutes φ (crustTemperature g.models) (crustTemperature g'.models) := by
  intro w
  show (_, _) = _
  rw [h.crust]
  rfl

theorem moltenM (h : Steady g g' φ) : Commutes φ (moltenTemperature g.models) (moltenTemperature g'.models) := by
  intro w
  show (_, _) = _
  rw [h.molten]
  rfl

theorem coverM (h : Steady g g' φ) : Commutes φ (effectiveCover g.models) (effectiveCover g'.models) := by
  unfold effectiveCover
  apply bindGet
  intro w
  refine bind h.vel fun v => ?_
  rw [h.cover]
  exact pure _

theorem effRad (h : Steady g g' φ) : Commutes φ (effectiveRadiationTemperature g.models) (effectiveRadiationTemperature g'.models) := by
  unfold effectiveRadiationTemperature
  exact bind h.coverM fun _ => bind h.crustM fun _ => bind h.moltenM fun _ => bind (lift (by rw [h.air])) fun _ =>
    bind (h.num _ _) fun _ => pure _

theorem spectral (h : Steady g g' φ) (lp : α) (eps : α → α → α × α) (width : α) :
    Commutes φ (spectralRadiance g.models lp eps width) (spectralRadiance g'.models lp eps width) := by
  unfold spectralRadiance
  exact bind h.coverM fun _ => bind h.crustM fun _ => bind h.moltenM fun _ => bind (lift rfl) fun _ => h.num _ _

theorem radiation (h : Steady g g' φ) (sigma : α) {e e' : PyM (World α) α} (he : Commutes φ e e') (lp : α) (eps : α → α → α × α) (width : α) :
    Commutes φ (radiationFlux g.models sigma e lp eps width) (radiationFlux g'.models sigma e' lp eps width) := by
  unfold radiationFlux
  exact bind h.effRad fun _ => bind he fun _ => bind (h.num _ _) fun _ => bind (h.spectral _ _ _) fun _ => pure _

theorem fluxM (h : Steady g g' φ) (width depth : α) (f : Flux α) : Commutes φ (f.compute g.models width depth) (f.compute g'.models width depth) := by
  cases f with
  | radBasic s e => exact h.radiation _ (pure _) _ _ _
  | radTwoEmi s e1 e2 => exact h.radiation _ (bind h.coverM fun _ => pure _) _ _ _
  | radCont s => exact h.radiation _ (bind h.coverM fun _ => bind h.crustM fun _ => bind h.moltenM fun _ => pure _) _ _ _
  | radLin s => exact h.radiation _ (bind h.effRad fun _ => pure _) _ _ _
  | conduction b p =>
    intro w
    show (_, _) = (_, _)
    rw [h.vesicle, h.temp]
    rfl
  | convection =>
    refine bind h.crustM fun _ => bind h.coverM fun _ => bind h.moltenM fun _ => bind (lift rfl) fun _ =>
      bind (h.num _ _) fun _ => bind (h.num _ _) fun _ => bind (h.num _ _) fun _ => ?_
    rw [h.air]
    exact pure _
  | rain a b c => exact pure _
  | viscous =>
    apply bindGet
    intro w
    exact bind (lift (h.bulk w)) fun _ => bind h.vel fun _ => bind (lift rfl) fun _ => pure _
  | snyder =>
    exact bind h.crustM fun _ => bind h.coverM fun _ => bind h.moltenM fun _ => bind (h.num _ _) fun _ =>
      bind (lift rfl) fun _ => bind (h.num _ _) fun _ => bind (h.num _ _) fun _ => bind (h.num _ _) fun _ =>
      bind (h.num _ _) fun _ => pure _

theorem heatLoop (h : Steady g g' φ) (width depth : α) (fs : List (Flux α)) (acc : α) :
    Commutes φ (PyFlowGo.heatBudgetLoop g.models width depth fs acc) (PyFlowGo.heatBudgetLoop g'.models width depth fs acc) := by
  induction fs generalizing acc with
  | nil => exact pure _
  | cons f rest ih =>
    exact bind (h.fluxM _ _ f) fun _ => bind (h.fluxM _ _ f) fun _ => bind (h.num _ _ (name_ne f)) fun _ => ih _

theorem heat (h : Steady g g' φ) (width depth : α) : Commutes φ (PyFlowGo.heatBudget g.models width depth) (PyFlowGo.heatBudget g'.models width depth) := by
  unfold PyFlowGo.heatBudget
  rw [h.fluxes]
  exact bind (h.heatLoop _ _ _ _) fun _ => bind (h.num _ _) fun _ => pure _

theorem widthE (h : Steady g g' φ) (w : World α) (v : α) :
    channelWidth g'.massConservation (φ w).effusionRate (φ w).fluxRate v (φ w).terrain.depth (g'.models.lava.density (φ w).st) =
      channelWidth g.massConservation w.effusionRate w.fluxRate v w.terrain.depth (g.models.lava.density w.st) := by
  rw [h.mass, h.rates, h.depth, h.density]
  cases hm : g.massConservation with
  | false => rfl
  | true => rw [h.flux hm]

/-- `stepCompute` after the effusion rate. -/
theorem rest (h : Steady g g' φ) (v : α) : Commutes φ (stepRest g v) (stepRest g' v) := by
  unfold stepRest
  refine bindGet ?_
  intro w
  refine bind (lift (h.widthE w v)) fun _ => bind (lift (h.slope w)) fun _ => ?_
  rw [h.depth w, h.density w]
  refine bind (h.heat _ _) fun heat => bindGet ?_
  intro w'
  refine bind (lift (h.rate w')) fun r => ?_
  refine bind (lift ?_) fun _ => ?_
  · rw [h.rates, h.latent]
  · rw [h.crystal, h.temp, h.dx]
    exact pure _

theorem log (h : Steady g g' φ) (d : StepData α) : Commutes φ (PyFlowGo.stepLog g d) (PyFlowGo.stepLog g' d) := by
  unfold PyFlowGo.stepLog
  refine bindGet ?_
  intro w
  rw [h.crystal, h.temp, h.strain, h.vesicle, h.density]
  iterate 5 refine bind (h.num _ _) fun _ => ?_
  refine bind (lift (h.bulk w)) fun _ => ?_
  iterate 3 refine bind (h.num _ _) fun _ => ?_
  refine bind h.crustM fun _ => ?_
  refine bind (h.num _ _) fun _ => ?_
  refine bind h.coverM fun _ => ?_
  iterate 6 refine bind (h.num _ _) fun _ => ?_
  refine bindGet ?_
  intro w'
  rw [h.rates]
  exact bind (h.logs _ _ (by decide)) fun _ => bind (h.num _ _) fun _ => bind (lift (h.yield_ w')) fun _ => bind (h.num _ _) fun _ =>
    bind (lift (h.basal w')) fun _ => h.num _ _

theorem setFin (h : Steady g g' φ) : Commutes φ (setFinished : PyM (World α) Unit) setFinished := modify h.finish

theorem stop (h : Steady g g' φ) (d : StepData α) : Commutes φ (PyFlowGo.stepStop g d) (PyFlowGo.stepStop g' d) := by
  unfold PyFlowGo.stepStop
  apply bindGet
  intro w
  rw [h.solid]
  refine ite rfl h.setFin (bind (lift (h.compat w)) fun nc => ite rfl h.setFin (bind (lift ?_) fun yc => ite rfl h.setFin
    (ite (h.length w) h.setFin (pure _))))
  unfold Lava.yieldNotCompatible
  rw [h.yield_, h.basal]

end Steady

namespace Standing
open Commutes
variable {α : Type} [Add α] [Sub α] [Mul α] [Neg α] [OfScientific α] [PyNum α] {g g' : Integrator α} {φ : World α → World α}

theorem compute (h : Standing g g' φ) (v : α) : Commutes φ (PyFlowGo.stepCompute g v) (PyFlowGo.stepCompute g' v) := by
  rw [stepCompute_rest, stepCompute_rest]
  refine bind (modify ?_) fun _ => h.rest v
  intro w
  by_cases c : (w.iteration == 0) = true
  · have c' : ((φ w).iteration == 0) = true := by rw [h.iter]; exact c
    rw [if_pos c, if_pos c', h.width, h.depth]
    exact h.setRate w _
  · have c' : ¬ ((φ w).iteration == 0) = true := by rw [h.iter]; exact c
    rw [if_neg c, if_neg c']

end Standing

namespace Mirror
open Commutes
variable {α : Type} [Add α] [Sub α] [Mul α] [Neg α] [OfScientific α] [PyNum α] {g g' : Integrator α} {φ : World α → World α}

theorem update (h : Mirror g g' φ) (d : StepData α) : Commutes φ (PyFlowGo.stepUpdate g d) (PyFlowGo.stepUpdate g' d) := by
  unfold PyFlowGo.stepUpdate
  rw [h.dx]
  exact bind (modify fun w => h.setState w _ _) fun _ => bind (lift rfl) fun dt => bind (modify fun w => h.setTime w dt) fun _ =>
    bind (lift rfl) fun x => modify fun w => h.setStrain w x

theorem step (h : Mirror g g' φ) : Commutes φ (PyFlowGo.singleStep g) (PyFlowGo.singleStep g') := by
  unfold PyFlowGo.singleStep
  refine bind h.vel fun v => ite rfl h.setFin (bind (h.compute v) fun d => bindGet ?_)
  intro w
  rw [h.crystal]
  exact ite rfl h.setFin (bind (h.log d) fun _ => bind (h.update d) fun _ => h.stop d)

/-- The whole loop. -/
theorem loop (h : Mirror g g' φ) (n : Nat) (w : World α) : runLoop g' n (φ w) = (runLoop g n w).map fun o => (o.1, φ o.2) := by
  induction n generalizing w with
  | zero =>
    unfold runLoop
    rw [h.fin]
    cases w.finished <;> rfl
  | succ n ih =>
    unfold runLoop
    rw [h.fin]
    cases w.finished with
    | true => rfl
    | false =>
      rw [h.step w]
      cases singleStep g w with
      | mk r v =>
        cases r with
        | error e => rfl
        | ok _ => exact ih v

end Mirror
end PyFlowGo
