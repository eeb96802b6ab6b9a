import Verif.Model.Run
import Verif.Proofs.Base
/-
  Two sets of models that give the same values in every state run alike, whatever classes they are made of.
-/
set_option linter.unusedSectionVars false
set_option linter.unusedSimpArgs false
namespace PyFlowGo
variable {α : Type} [Add α] [Sub α] [Mul α] [Neg α] [OfScientific α] [PyNum α]

/-- The two sets of models give the same values in every state. -/
structure SameLaws (m m' : Models α) : Prop where
  eruptionT : m.lava.eruptionT = m'.lava.eruptionT
  buffer : m.lava.buffer = m'.lava.buffer
  latentHeat : m.lava.latentHeat = m'.lava.latentHeat
  densityDre : m.lava.densityDre = m'.lava.densityDre
  vesicles : ∀ s, m.lava.vesicleFraction s = m'.lava.vesicleFraction s
  viscosity : ∀ s, m.lava.bulkViscosity s = m'.lava.bulkViscosity s
  packing : ∀ s, m.lava.notCompatible s = m'.lava.notCompatible s
  yld : ∀ s, m.lava.yieldStrength s = m'.lava.yieldStrength s
  air : m.air = m'.air
  crust : ∀ s, m.crust.temperature s = m'.crust.temperature s
  cover : ∀ pos v, m.cover.value pos v = m'.cover.value pos v
  crystals : ∀ t, m.cryst.crystalFraction t = m'.cryst.crystalFraction t
  rate : ∀ s, m.cryst.rate s = m'.cryst.rate s
  solid : m.cryst.solidTemperature = m'.cryst.solidTemperature
  fluxes : m.fluxes = m'.fluxes

variable {m m' : Models α}

theorem laws_density (h : SameLaws m m') (s : FlowState α) : m.lava.density s = m'.lava.density s := by
  unfold Lava.density; rw [h.vesicles, h.densityDre]

theorem laws_basal (h : SameLaws m m') (t : Terrain α) (s : FlowState α) : m.lava.basalStress t s = m'.lava.basalStress t s := by
  unfold Lava.basalStress; rw [laws_density h]

theorem laws_notYield (h : SameLaws m m') (t : Terrain α) (s : FlowState α) : m.lava.yieldNotCompatible t s = m'.lava.yieldNotCompatible t s := by
  unfold Lava.yieldNotCompatible; rw [laws_basal h, h.yld]

theorem laws_loop (h : SameLaws m m') (s : FlowState α) (depth tho0 thob : α) (n : Nat) (x : α) :
    velocityLoop m.lava s depth tho0 thob n x = velocityLoop m'.lava s depth tho0 thob n x := by
  induction n generalizing x with
  | zero => rfl
  | succ n ih => unfold velocityLoop; simp only [ih, h.viscosity]

theorem laws_velocity (h : SameLaws m m') : meanVelocityM m.lava = meanVelocityM m'.lava := by
  funext w
  unfold meanVelocityM Lava.meanVelocity
  rw [h.yld, laws_basal h]
  simp only [laws_loop h]

theorem laws_cover (h : SameLaws m m') : effectiveCover m = effectiveCover m' := by
  unfold effectiveCover
  rw [laws_velocity h]
  simp only [h.cover]

theorem laws_crust (h : SameLaws m m') : crustTemperature m = crustTemperature m' := by
  funext w; unfold crustTemperature; rw [h.crust]

theorem laws_molten (h : SameLaws m m') : moltenTemperature m = moltenTemperature m' := by
  funext w; unfold moltenTemperature Lava.moltenTemperature; rw [h.buffer]

theorem laws_radiation (h : SameLaws m m') : effectiveRadiationTemperature m = effectiveRadiationTemperature m' := by
  unfold effectiveRadiationTemperature; rw [laws_cover h, laws_crust h, laws_molten h, h.air]

theorem laws_spectral (h : SameLaws m m') : spectralRadiance m = spectralRadiance m' := by
  funext a b c
  unfold spectralRadiance; rw [laws_cover h, laws_crust h, laws_molten h]

theorem laws_radiationFlux (h : SameLaws m m') : radiationFlux m = radiationFlux m' := by
  funext a b c d e
  unfold radiationFlux; rw [laws_radiation h, laws_spectral h]

theorem laws_flux (h : SameLaws m m') (width depth : α) (f : Flux α) : f.compute m width depth = f.compute m' width depth := by
  by_cases hc : ∃ b p, f = .conduction b p
  · obtain ⟨b, p, rfl⟩ := hc
    funext w
    unfold Flux.compute
    dsimp only
    rw [h.vesicles]
  cases f <;> unfold Flux.compute <;> dsimp only <;> first | exact absurd ⟨_, _, rfl⟩ hc | rfl |
    simp only [laws_radiationFlux h, laws_cover h, laws_crust h, laws_molten h, laws_radiation h, laws_velocity h, h.vesicles, h.viscosity, h.air]

theorem laws_budgetLoop (h : SameLaws m m') (width depth : α) (fs : List (Flux α)) (acc : α) :
    heatBudgetLoop m width depth fs acc = heatBudgetLoop m' width depth fs acc := by
  induction fs generalizing acc with
  | nil => rfl
  | cons f rest ih => unfold heatBudgetLoop; simp only [laws_flux h, ih]

theorem laws_budget (h : SameLaws m m') (width depth : α) : heatBudget m width depth = heatBudget m' width depth := by
  unfold heatBudget; rw [laws_budgetLoop h, h.fluxes]

theorem laws_step (h : SameLaws m m') (dx : α) (mass : Bool) : singleStep ⟨dx, m, mass⟩ = singleStep ⟨dx, m', mass⟩ := by
  have e1 : ∀ v, stepCompute ⟨dx, m, mass⟩ v = stepCompute ⟨dx, m', mass⟩ v := by
    intro v
    unfold stepCompute
    simp only [laws_density h, laws_budget h, h.rate, h.latentHeat]
  have e2 : ∀ d, stepLog ⟨dx, m, mass⟩ d = stepLog ⟨dx, m', mass⟩ d := by
    intro d
    unfold stepLog
    simp only [laws_density h, laws_crust h, laws_cover h, laws_basal h, h.vesicles, h.viscosity, h.yld]
  have e3 : ∀ d, stepUpdate ⟨dx, m, mass⟩ d = stepUpdate ⟨dx, m', mass⟩ d := fun d => rfl
  have e4 : ∀ d, stepStop ⟨dx, m, mass⟩ d = stepStop ⟨dx, m', mass⟩ d := by
    intro d
    unfold stepStop
    simp only [h.solid, h.packing, laws_notYield h]
  unfold singleStep
  simp only [e1, e2, e3, e4, laws_velocity h]

theorem laws_runLoop (h : SameLaws m m') (dx : α) (mass : Bool) (n : Nat) (w : World α) : runLoop ⟨dx, m, mass⟩ n w = runLoop ⟨dx, m', mass⟩ n w := by
  induction n generalizing w with
  | zero => rfl
  | succ n ih => unfold runLoop; rw [laws_step h]; simp only [ih]

theorem laws_depth (h : SameLaws m m') (grid : List α) : depthSearch m.lava grid = depthSearch m'.lava grid := by
  induction grid with
  | nil => rfl
  | cons d rest ih => unfold depthSearch; simp only [ih, laws_velocity h, laws_density h]

/-- Models with the same laws: the same simulation. -/
theorem laws_simulate (h : SameLaws m m') (grid : List α) (fuel : Nat) (dx : α) (mass : Bool) (w : World α) :
    simulateOn grid fuel ⟨dx, m, mass⟩ w = simulateOn grid fuel ⟨dx, m', mass⟩ w := by
  unfold simulateOn initEffusionRateOn
  simp only [laws_depth h, laws_runLoop h]

theorem laws_initial (h : SameLaws m m') (t : Terrain α) (pos time : α) : initialState m t pos time = initialState m' t pos time := by
  unfold initialState; dsimp only; rw [h.eruptionT, h.crystals]

/-- The same exception, or values in the relation `S`. -/
def BothE {γ : Type} (S : γ → γ → Prop) (x y : Except Err γ) : Prop :=
  (∃ e, x = .error e ∧ y = .error e) ∨ ∃ a b, x = .ok a ∧ y = .ok b ∧ S a b

theorem BothE.of_eq {γ : Type} {S : γ → γ → Prop} (hS : ∀ a, S a a) {x y : Except Err γ} (h : x = y) : BothE S x y := by
  subst h
  cases x with
  | error e => exact .inl ⟨e, rfl, rfl⟩
  | ok a => exact .inr ⟨a, a, rfl, rfl, hS a⟩

theorem BothE.bind {γ δ : Type} {S : γ → γ → Prop} {T : δ → δ → Prop} {x y : Except Err γ} {f g : γ → Except Err δ} (h : BothE S x y)
    (hf : ∀ a b, S a b → BothE T (f a) (g b)) : BothE T (x >>= f) (y >>= g) := by
  rcases h with ⟨e, rfl, rfl⟩ | ⟨a, b, rfl, rfl, s⟩
  · exact .inl ⟨e, rfl, rfl⟩
  · exact hf a b s

theorem BothE.eqBind {γ δ : Type} {T : δ → δ → Prop} {x y : Except Err γ} {f g : γ → Except Err δ} (h : x = y)
    (hf : ∀ a, BothE T (f a) (g a)) : BothE T (x >>= f) (y >>= g) := by
  subst h
  cases x with
  | error e => exact .inl ⟨e, rfl, rfl⟩
  | ok a => exact hf a

theorem BothE.ite {γ : Type} {S : γ → γ → Prop} {p : Prop} [Decidable p] {a b a' b' : Except Err γ} (h : BothE S a a') (h' : BothE S b b') :
    BothE S (if p then a else b) (if p then a' else b') := by
  by_cases hp : p
  · rw [if_pos hp, if_pos hp]; exact h
  · rw [if_neg hp, if_neg hp]; exact h'

/-- Crystallisation models with the same values. -/
def SameCrystLaw (c c' : CrystModel α) : Prop :=
  (∀ t, c.crystalFraction t = c'.crystalFraction t) ∧ (∀ s, c.rate s = c'.rate s) ∧ c.solidTemperature = c'.solidTemperature

/-- Vesicle models with the same values. -/
def SameVesLaw (v v' : VesicleModel α) : Prop := ∀ s, v.fraction s = v'.fraction s

/-- Cover models with the same values. -/
def SameCoverLaw (c c' : CoverModel α) : Prop := ∀ pos v, c.value pos v = c'.value pos v

/-- Relative-viscosity models with the same values. -/
def SameRelLaw (r r' : RelModel α) : Prop := (∀ s, r.relative s = r'.relative s) ∧ ∀ s, r.notCompatible s = r'.notCompatible s

/-- Bubble models with the same values. -/
def SameBubLaw (b b' : BubModel α) : Prop := ∀ s, b.relative s = b'.relative s

theorem rel_laws (env : Env α) (d name : Json α) (v v' : VesicleModel α) (melt : MeltModel α) (hv : SameVesLaw v v') :
    BothE SameRelLaw (buildRel env d name v melt) (buildRel env d name v' melt) := by
  have keep : ∀ x : Except Err (RelModel α), BothE SameRelLaw x x := fun x => .of_eq (fun r => ⟨fun _ => rfl, fun _ => rfl⟩) rfl
  have ok : ∀ a b : RelModel α, SameRelLaw a b → BothE SameRelLaw (.ok a) (.ok b) := fun a b h => .inr ⟨a, b, rfl, rfl, h⟩
  unfold buildRel
  dsimp only
  repeat' (first | exact keep _ | apply BothE.ite)
  all_goals first
    | exact keep _
    | (apply ok; constructor <;> intro s <;> simp only [RelModel.relative, RelModel.notCompatible, hv s])
    | (repeat refine BothE.eqBind rfl fun _ => ?_
       apply ok; constructor <;> intro s <;> simp only [RelModel.relative, RelModel.notCompatible, bllRelative, hv s])

theorem bub_laws (env : Env α) (d name : Json α) (v v' : VesicleModel α) (melt : MeltModel α) (r r' : RelModel α) (hv : SameVesLaw v v') (hr : SameRelLaw r r') :
    BothE SameBubLaw (buildBub env d name v melt r) (buildBub env d name v' melt r') := by
  have keep : ∀ x : Except Err (BubModel α), BothE SameBubLaw x x := fun x => .of_eq (fun r => fun _ => rfl) rfl
  have ok : ∀ a b : BubModel α, SameBubLaw a b → BothE SameBubLaw (.ok a) (.ok b) := fun a b h => .inr ⟨a, b, rfl, rfl, h⟩
  unfold buildBub
  repeat' split
  all_goals first
    | exact keep _
    | (apply ok; intro s; simp only [BubModel.relative, hv s, hr.1 s])
    | (repeat refine BothE.eqBind rfl fun _ => ?_
       apply ok; intro s; simp only [BubModel.relative, hv s, hr.1 s])

end PyFlowGo
