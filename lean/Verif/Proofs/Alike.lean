import Verif.Model.Run
import Verif.Proofs.Base
/-
  Two worlds that differ at most in the length of the channel, the clock and the flag that ends the loop take the same steps.
-/
set_option linter.unusedSectionVars false
namespace PyFlowGo

/-- Does the crust model read the clock? -/
def CrustModel.readsClock {α : Type} : CrustModel α → Prop
  | .hon => True
  | .honBimodal _ _ => True
  | _ => False

/-- Equal but for `max_channel_length`, the flag that ends the loop and, unless the crust model `c` reads it, the clock. -/
def Alike {α : Type} (c : CrustModel α) (w w' : World α) : Prop :=
  ∃ (L t : α) (fin : Bool), (c.readsClock → t = w.st.time) ∧ w' = { w with terrain := { w.terrain with maxLength := L }, st := { w.st with time := t }, finished := fin }

/-- From worlds that are alike two programs get the same value or the same exception and leave worlds that are alike. -/
def Alongside {α β : Type} (c : CrustModel α) (m m' : PyM (World α) β) : Prop :=
  ∀ w w', Alike c w w' → (m w).1 = (m' w').1 ∧ Alike c (m w).2 (m' w').2

theorem Alike.refl {α : Type} (c : CrustModel α) (w : World α) : Alike c w w := ⟨w.terrain.maxLength, w.st.time, w.finished, fun _ => rfl, rfl⟩

section clock
variable {α : Type} [Add α] [Sub α] [Mul α] [Neg α] [OfScientific α] [PyNum α]

theorem ves_time (m : VesicleModel α) (s : FlowState α) (t : α) : m.fraction { s with time := t } = m.fraction s := by
  cases m <;> rfl

theorem melt_time (m : MeltModel α) (s : FlowState α) (t : α) : m.viscosity { s with time := t } = m.viscosity s := by
  cases m <;> rfl

theorem rel_time (m : RelModel α) (s : FlowState α) (t : α) : m.relative { s with time := t } = m.relative s := by
  cases m <;> simp only [RelModel.relative, ves_time, melt_time] <;> rfl

theorem bub_time (m : BubModel α) (s : FlowState α) (t : α) : m.relative { s with time := t } = m.relative s := by
  cases m <;> simp only [BubModel.relative, ves_time, melt_time, rel_time]

theorem bulk_time (l : Lava α) (s : FlowState α) (t : α) : l.bulkViscosity { s with time := t } = l.bulkViscosity s := by
  unfold Lava.bulkViscosity
  rw [melt_time, rel_time, bub_time]

theorem yield_time (l : Lava α) (s : FlowState α) (t : α) : l.yieldStrength { s with time := t } = l.yieldStrength s := by
  unfold Lava.yieldStrength
  cases l.yld <;> simp only [YieldModel.strength, ves_time]

theorem density_time (l : Lava α) (s : FlowState α) (t : α) : l.density { s with time := t } = l.density s := by
  simp only [Lava.density, Lava.vesicleFraction, ves_time]

theorem basal_time (l : Lava α) (T : Terrain α) (s : FlowState α) (L t : α) :
    l.basalStress { T with maxLength := L } { s with time := t } = l.basalStress T s := by
  unfold Lava.basalStress
  rw [density_time]
  rfl

theorem velocityLoop_time (l : Lava α) (s : FlowState α) (t depth tho0 thob : α) (n : Nat) (x : α) :
    velocityLoop l { s with time := t } depth tho0 thob n x = velocityLoop l s depth tho0 thob n x := by
  induction n generalizing x with
  | zero => rfl
  | succ n ih => simp only [velocityLoop, bulk_time, ih]

theorem meanVelocity_time (l : Lava α) (T : Terrain α) (s : FlowState α) (L t : α) :
    l.meanVelocity { T with maxLength := L } { s with time := t } = l.meanVelocity T s := by
  unfold Lava.meanVelocity
  rw [yield_time, basal_time]
  simp only [velocityLoop_time]

theorem crust_time (m : CrustModel α) (s : FlowState α) (t : α) (h : m.readsClock → t = s.time) :
    m.temperature { s with time := t } = m.temperature s := by
  cases m with
  | hon => rw [h trivial]
  | honBimodal a b => rw [h trivial]
  | field a b => cases b <;> rfl
  | _ => rfl

theorem rate_time (m : CrystModel α) (s : FlowState α) (t : α) : m.rate { s with time := t } = m.rate s := by
  cases m <;> rfl

theorem notCompatible_time (l : Lava α) (s : FlowState α) (t : α) : l.notCompatible { s with time := t } = l.notCompatible s := by
  unfold Lava.notCompatible
  cases l.rel <;> simp only [RelModel.notCompatible, ves_time, melt_time]

theorem yieldNotCompatible_time (l : Lava α) (T : Terrain α) (s : FlowState α) (L t : α) :
    l.yieldNotCompatible { T with maxLength := L } { s with time := t } = l.yieldNotCompatible T s := by
  unfold Lava.yieldNotCompatible
  rw [yield_time, basal_time]

end clock

namespace Alongside
variable {α β γ : Type} {c : CrustModel α}

theorem bind {m m' : PyM (World α) β} {f f' : β → PyM (World α) γ} (hm : Alongside c m m') (hf : ∀ b, Alongside c (f b) (f' b)) :
    Alongside c (m >>= f) (m' >>= f') := by
  intro w w' h
  obtain ⟨h1, h2⟩ := hm w w' h
  rw [PyM.bind_apply, PyM.bind_apply]
  cases e : m w with
  | mk r v =>
    cases e' : m' w' with
    | mk r' v' =>
      rw [e, e'] at h1 h2
      dsimp only at h1 h2
      subst h1
      cases r with
      | error x => exact ⟨rfl, h2⟩
      | ok b => exact hf b v v' h2

theorem pure (b : β) : Alongside c (Pure.pure b : PyM (World α) β) (Pure.pure b) := fun _ _ h => ⟨rfl, h⟩

theorem lift (x : Except Err β) : Alongside c (PyM.lift x : PyM (World α) β) (PyM.lift x) := fun _ _ h => ⟨rfl, h⟩

theorem bindGet {f f' : World α → PyM (World α) γ} (hf : ∀ w w', Alike c w w' → Alongside c (f w) (f' w')) :
    Alongside c (PyM.get >>= f) (PyM.get >>= f') := by
  intro w w' h
  exact hf w w' h w w' h

theorem modify {f f' : World α → World α} (hf : ∀ w w', Alike c w w' → Alike c (f w) (f' w')) : Alongside c (PyM.modify f) (PyM.modify f') :=
  fun w w' h => ⟨rfl, hf w w' h⟩

theorem ite {m1 m2 m1' m2' : PyM (World α) β} (b : Bool) (h1 : Alongside c m1 m1') (h2 : Alongside c m2 m2') :
    Alongside c (if b then m1 else m2) (if b then m1' else m2') := by
  cases b
  · exact h2
  · exact h1

variable [Add α] [Sub α] [Mul α] [Neg α] [OfScientific α] [PyNum α]

theorem logCell (n : String) (v : Cell α) : Alongside c (PyFlowGo.logCell n v) (PyFlowGo.logCell n v) := by
  apply modify
  rintro w w' ⟨L, t, fin, ht, rfl⟩
  exact ⟨L, t, fin, ht, rfl⟩

theorem logNum (n : String) (v : α) : Alongside c (PyFlowGo.logNum n v) (PyFlowGo.logNum n v) := logCell n _

theorem velocity (l : Lava α) : Alongside c (meanVelocityM l) (meanVelocityM l) := by
  rintro w w' ⟨L, t, fin, ht, rfl⟩
  unfold meanVelocityM
  have e : l.meanVelocity { w.terrain with maxLength := L } { w.st with time := t } = l.meanVelocity w.terrain w.st := meanVelocity_time l w.terrain w.st L t
  dsimp only
  rw [e]
  cases l.meanVelocity w.terrain w.st with
  | error x => exact ⟨rfl, L, t, fin, ht, rfl⟩
  | ok q => exact ⟨rfl, L, t, fin, ht, rfl⟩

theorem crust (m : Models α) : Alongside m.crust (crustTemperature m) (crustTemperature m) := by
  rintro w w' ⟨L, t, fin, ht, rfl⟩
  exact ⟨congrArg id (crust_time m.crust w.st t ht).symm, L, t, fin, ht, rfl⟩

theorem molten (m : Models α) : Alongside m.crust (moltenTemperature m) (moltenTemperature m) := by
  rintro w w' ⟨L, t, fin, ht, rfl⟩
  exact ⟨rfl, L, t, fin, ht, rfl⟩

theorem cover (m : Models α) : Alongside m.crust (effectiveCover m) (effectiveCover m) := by
  unfold effectiveCover
  apply bindGet
  rintro w w' ⟨L, t, fin, ht, rfl⟩
  exact bind (velocity _) fun _ => pure _

theorem effRad (m : Models α) : Alongside m.crust (effectiveRadiationTemperature m) (effectiveRadiationTemperature m) := by
  unfold effectiveRadiationTemperature
  exact bind (cover m) fun _ => bind (crust m) fun _ => bind (molten m) fun _ => bind (lift _) fun _ =>
    bind (logNum _ _) fun _ => pure _

theorem spectral (m : Models α) (lp : α) (eps : α → α → α × α) (width : α) :
    Alongside m.crust (spectralRadiance m lp eps width) (spectralRadiance m lp eps width) := by
  unfold spectralRadiance
  exact bind (cover m) fun _ => bind (crust m) fun _ => bind (molten m) fun _ => bind (lift _) fun _ => logNum _ _

theorem radiation (m : Models α) (sigma : α) (e : PyM (World α) α) (he : Alongside m.crust e e) (lp : α) (eps : α → α → α × α) (width : α) :
    Alongside m.crust (radiationFlux m sigma e lp eps width) (radiationFlux m sigma e lp eps width) := by
  unfold radiationFlux
  exact bind (effRad m) fun _ => bind he fun _ => bind (logNum _ _) fun _ => bind (spectral m _ _ _) fun _ => pure _

theorem flux (m : Models α) (width depth : α) (f : Flux α) : Alongside m.crust (f.compute m width depth) (f.compute m width depth) := by
  cases f with
  | radBasic s e => exact radiation m _ _ (pure _) _ _ _
  | radTwoEmi s e1 e2 => exact radiation m _ _ (bind (cover m) fun _ => pure _) _ _ _
  | radCont s => exact radiation m _ _ (bind (cover m) fun _ => bind (crust m) fun _ => bind (molten m) fun _ => pure _) _ _ _
  | radLin s => exact radiation m _ _ (bind (effRad m) fun _ => pure _) _ _ _
  | conduction b p =>
    rintro w w' ⟨L, t, fin, ht, rfl⟩
    exact ⟨rfl, L, t, fin, ht, rfl⟩
  | convection =>
    exact bind (crust m) fun _ => bind (cover m) fun _ => bind (molten m) fun _ => bind (lift _) fun _ =>
      bind (logNum _ _) fun _ => bind (logNum _ _) fun _ => bind (logNum _ _) fun _ => pure _
  | rain a b c => exact pure _
  | viscous =>
    apply bindGet
    rintro w w' ⟨L, t, fin, ht, rfl⟩
    exact bind (lift _) fun _ => bind (velocity _) fun _ => bind (lift _) fun _ => pure _
  | snyder =>
    exact bind (crust m) fun _ => bind (cover m) fun _ => bind (molten m) fun _ => bind (logNum _ _) fun _ =>
      bind (lift _) fun _ => bind (logNum _ _) fun _ => bind (logNum _ _) fun _ => bind (logNum _ _) fun _ =>
      bind (logNum _ _) fun _ => pure _

theorem heatBudgetLoop (m : Models α) (width depth : α) (fs : List (Flux α)) (acc : α) :
    Alongside m.crust (PyFlowGo.heatBudgetLoop m width depth fs acc) (PyFlowGo.heatBudgetLoop m width depth fs acc) := by
  induction fs generalizing acc with
  | nil => exact pure _
  | cons f rest ih =>
    exact bind (flux m _ _ f) fun _ => bind (flux m _ _ f) fun _ => bind (logNum _ _) fun _ => ih _

theorem heatBudget (m : Models α) (width depth : α) :
    Alongside m.crust (PyFlowGo.heatBudget m width depth) (PyFlowGo.heatBudget m width depth) := by
  unfold PyFlowGo.heatBudget
  exact bind (heatBudgetLoop m _ _ _ _) fun _ => bind (logNum _ _) fun _ => pure _

theorem stepCompute (g : Integrator α) (v : α) : Alongside g.models.crust (PyFlowGo.stepCompute g v) (PyFlowGo.stepCompute g v) := by
  unfold PyFlowGo.stepCompute
  refine bind (modify ?_) fun _ => bindGet ?_
  · rintro w w' ⟨L, t, fin, ht, rfl⟩
    dsimp only
    split
    · exact ⟨L, t, fin, ht, rfl⟩
    · exact ⟨L, t, fin, ht, rfl⟩
  · rintro w w' ⟨L, t, fin, ht, rfl⟩
    refine bind (lift _) fun _ => bind (lift _) fun _ => bind (heatBudget _ _ _) fun _ => bindGet ?_
    rintro w w' ⟨L, t, fin, ht, rfl⟩
    exact bind (lift _) fun _ => bind (lift _) fun _ => pure _

theorem stepLog (g : Integrator α) (d : StepData α) : Alongside g.models.crust (PyFlowGo.stepLog g d) (PyFlowGo.stepLog g d) := by
  unfold PyFlowGo.stepLog
  refine bindGet ?_
  rintro w w' ⟨L, t, fin, ht, rfl⟩
  refine bind (logNum _ _) fun _ => bind (logNum _ _) fun _ => bind (logNum _ _) fun _ => bind (logNum _ _) fun _ =>
    bind (logNum _ _) fun _ => bind (lift _) fun _ => bind (logNum _ _) fun _ => bind (logNum _ _) fun _ => bind (logNum _ _) fun _ =>
    bind (crust _) fun _ => bind (logNum _ _) fun _ => bind (cover _) fun _ => bind (logNum _ _) fun _ => bind (logNum _ _) fun _ =>
    bind (logNum _ _) fun _ => bind (logNum _ _) fun _ => bind (logNum _ _) fun _ => bind (logNum _ _) fun _ => bindGet ?_
  rintro w w' ⟨L, t, fin, ht, rfl⟩
  exact bind (logCell _ _) fun _ => bind (logNum _ _) fun _ => bind (lift _) fun _ => bind (logNum _ _) fun _ => bind (lift _) fun _ =>
    logNum _ _

theorem stepUpdate (g : Integrator α) (d : StepData α) : Alongside g.models.crust (PyFlowGo.stepUpdate g d) (PyFlowGo.stepUpdate g d) := by
  unfold PyFlowGo.stepUpdate
  refine bind (modify ?_) fun _ => bind (lift _) fun dt => bind (modify ?_) fun _ => bind (lift _) fun _ => modify ?_
  · rintro w w' ⟨L, t, fin, ht, rfl⟩
    exact ⟨L, t, fin, ht, rfl⟩
  · rintro w w' ⟨L, t, fin, ht, rfl⟩
    exact ⟨L, t + dt, fin, fun h => by rw [ht h], rfl⟩
  · rintro w w' ⟨L, t, fin, ht, rfl⟩
    exact ⟨L, t, fin, ht, rfl⟩

theorem finish : Alongside c (setFinished : PyM (World α) Unit) setFinished := by
  apply modify
  rintro w w' ⟨L, t, fin, ht, rfl⟩
  exact ⟨L, t, true, ht, rfl⟩

theorem finish_or : Alongside c (setFinished : PyM (World α) Unit) (Pure.pure ()) := by
  rintro w w' ⟨L, t, fin, ht, rfl⟩
  exact ⟨rfl, L, t, fin, ht, rfl⟩

theorem or_finish : Alongside c (Pure.pure ()) (setFinished : PyM (World α) Unit) := by
  rintro w w' ⟨L, t, fin, ht, rfl⟩
  exact ⟨rfl, L, t, true, ht, rfl⟩

theorem stepStop (g : Integrator α) (d : StepData α) : Alongside g.models.crust (PyFlowGo.stepStop g d) (PyFlowGo.stepStop g d) := by
  unfold PyFlowGo.stepStop
  apply bindGet
  rintro w w' ⟨L, t, fin, ht, rfl⟩
  refine ite _ finish (bind (lift _) fun nc => ite _ finish (bind (lift _) fun yc => ite _ finish ?_))
  dsimp only
  split <;> split
  · exact finish
  · exact finish_or
  · exact or_finish
  · exact pure _

theorem singleStep (g : Integrator α) : Alongside g.models.crust (PyFlowGo.singleStep g) (PyFlowGo.singleStep g) := by
  unfold PyFlowGo.singleStep
  refine bind (velocity _) fun v => ite _ finish (bind (stepCompute g v) fun d => bindGet ?_)
  rintro w w' ⟨L, t, fin, ht, rfl⟩
  exact ite _ finish (bind (stepLog g d) fun _ => bind (stepUpdate g d) fun _ => stepStop g d)

theorem depthSearch (l : Lava α) (grid : List α) : Alongside c (PyFlowGo.depthSearch l grid) (PyFlowGo.depthSearch l grid) := by
  induction grid with
  | nil => exact pure _
  | cons d rest ih =>
    unfold PyFlowGo.depthSearch
    refine bind (modify ?_) fun _ => bind (velocity _) fun v => bind (modify ?_) fun _ => bind (modify ?_) fun _ => bindGet ?_
    · rintro w w' ⟨L, t, fin, ht, rfl⟩
      exact ⟨L, t, fin, ht, rfl⟩
    · rintro w w' ⟨L, t, fin, ht, rfl⟩
      exact ⟨L, t, fin, ht, rfl⟩
    · rintro w w' ⟨L, t, fin, ht, rfl⟩
      exact ⟨L, t, fin, ht, rfl⟩
    · rintro w w' ⟨L, t, fin, ht, rfl⟩
      exact ite _ (pure _) ih

theorem initEffusionRateOn (grid : List α) (l : Lava α) :
    Alongside c (PyFlowGo.initEffusionRateOn grid l) (PyFlowGo.initEffusionRateOn grid l) := by
  unfold PyFlowGo.initEffusionRateOn
  apply bindGet
  rintro w w' ⟨L, t, fin, ht, rfl⟩
  exact ite _ (pure _) (depthSearch l grid)

end Alongside
end PyFlowGo
