import Verif.Proofs.Transfer
import Verif.Proofs.StepForward
/-
  The mutating part of the simulation: steps, the loop, the depth search, the result file.
-/
set_option linter.unusedSectionVars false
namespace PyFlowGo
open Spec

section
variable {α β : Type} [Add α] [Sub α] [Mul α] [Neg α] [OfScientific α] [PyNum α]
  [Add β] [Sub β] [Mul β] [Neg β] [OfScientific β] [PyNum β] {R : α → β → Prop} [NumRel R]
variable {γ δ γ' δ' : Type} {S : γ → δ → Prop} {T : γ' → δ' → Prop}

/-- What the second program keeps of a piece of the first that succeeds from the same moment. -/
def RelM (R : α → β → Prop) (S : γ → δ → Prop) (m : PyM (World α) γ) (n : PyM (World β) δ) : Prop :=
  ∀ w w', SameWorld R w w' → ∀ a v, m w = (.ok a, v) → ∃ b v', n w' = (.ok b, v') ∧ S a b ∧ SameWorld R v v'

theorem RelM.pure {a : γ} {b : δ} (h : S a b) : RelM R S (Pure.pure a) (Pure.pure b) := by
  rintro w w' hw _ _ ⟨⟩; exact ⟨b, w', rfl, h, hw⟩

theorem RelM.bind {m : PyM (World α) γ} {n : PyM (World β) δ} {f : γ → PyM (World α) γ'} {g : δ → PyM (World β) δ'}
    (h : RelM R S m n) (hf : ∀ a b, S a b → RelM R T (f a) (g b)) : RelM R T (m >>= f) (n >>= g) := by
  intro w w' hw c v hc
  obtain ⟨a, u, h1, h2⟩ := PyM.bind_eq_ok.mp hc
  obtain ⟨b, u', h3, hs, hu⟩ := h w w' hw a u h1
  obtain ⟨d, v', h4, ht, hv⟩ := hf a b hs u u' hu c v h2
  exact ⟨d, v', by rw [PyM.bind_of_ok h3, h4], ht, hv⟩

theorem RelM.lift {x : Except Err γ} {y : Except Err δ} (h : RelE S x y) : RelM R S (PyM.lift x) (PyM.lift y) := by
  intro w w' hw a v hav
  obtain ⟨h1, rfl⟩ := Prod.mk.inj hav
  obtain ⟨b, rfl, hs⟩ := h a h1
  exact ⟨b, w', rfl, hs, hw⟩

theorem RelM.get : RelM R (SameWorld R) PyM.get PyM.get := by
  rintro w w' hw _ _ ⟨⟩; exact ⟨w', w', rfl, hw, hw⟩

theorem RelM.modify {f : World α → World α} {g : World β → World β}
    (h : ∀ w w', SameWorld R w w' → SameWorld R (f w) (g w')) : RelM R (fun _ _ => True) (PyM.modify f) (PyM.modify g) := by
  rintro w w' hw _ _ ⟨⟩; exact ⟨(), g w', rfl, trivial, h w w' hw⟩

theorem RelM.ite {p q : Bool} {x x' : PyM (World α) γ} {y y' : PyM (World β) δ} (h : p = q) (h1 : RelM R S x y)
    (h2 : RelM R S x' y') : RelM R S (if p = true then x else x') (if q = true then y else y') := by
  subst h; cases p
  · simpa using h2
  · simpa using h1

/-! ### the log -/

theorem cell_same {a b : Cell α} {c d : Cell β} (h : SameCell R a c) (h2 : SameCell R b d) : (a == b) = (c == d) := by
  cases h with
  | num h => cases h2 with
    | num h2 => exact NumRel.eq h h2
    | text h2 => rfl
  | text h => cases h2 with
    | num h2 => rfl
    | text h2 => exact NumRel.eq h h2

theorem rowGet_same {r : Row (Cell α)} {r' : Row (Cell β)} (h : SameRow R r r') (k : String) :
    SameOption (SameCell R) (r.get? k) (r'.get? k) := by
  unfold Row.get?
  induction h with
  | nil => exact .none
  | @cons x y _ _ hxy h ih =>
    by_cases hk : (x.1 == k) = true
    · rw [List.find?_cons_of_pos (by exact hk), List.find?_cons_of_pos (by rw [← hxy.1]; exact hk)]
      exact .some hxy.2
    · rw [List.find?_cons_of_neg (by exact hk), List.find?_cons_of_neg (by rw [← hxy.1]; exact hk)]
      exact ih

theorem rowSet_same {r : Row (Cell α)} {r' : Row (Cell β)} (h : SameRow R r r') (k : String) {c : Cell α} {d : Cell β}
    (hc : SameCell R c d) : SameRow R (r.set k c) (r'.set k d) := by
  induction h with
  | nil => exact .cons ⟨rfl, hc⟩ .nil
  | @cons x y _ _ hxy h ih =>
    obtain ⟨x1, x2⟩ := x; obtain ⟨y1, y2⟩ := y
    obtain ⟨h1, h2⟩ := hxy
    dsimp only at h1 h2
    subst h1
    rw [Row.set, Row.set]
    split
    · exact .cons ⟨rfl, hc⟩ h
    · exact .cons ⟨rfl, h2⟩ ih

theorem rowAt_same {r : Row (Cell α)} {r' : Row (Cell β)} (h : SameRow R r r') {c : Cell α} {d : Cell β}
    (hc : SameCell R c d) : r.atPosition c = r'.atPosition d := by
  unfold Row.atPosition
  have hg := rowGet_same h "position"
  generalize r.get? "position" = p at hg ⊢
  generalize r'.get? "position" = p' at hg ⊢
  cases hg with
  | none => rfl
  | some hp => exact cell_same hc hp

theorem addVariable_same {l : Log (Cell α)} {l' : Log (Cell β)} (h : SameLog R l l') (k : String) {c p : Cell α}
    {d q : Cell β} (hp : SameCell R p q) (hc : SameCell R c d) :
    SameLog R (l.addVariable k p c) (l'.addVariable k q d) := by
  induction h with
  | nil =>
    refine .cons ?_ .nil
    unfold newRow
    exact rowSet_same (r := [("position", p)]) (r' := [("position", q)]) (.cons ⟨rfl, hp⟩ .nil) k hc
  | cons hr h ih =>
    rw [Log.addVariable, Log.addVariable, rowAt_same hr hp]
    split
    · exact .cons (rowSet_same hr k hc) h
    · exact .cons hr ih

theorem logCell_same (k : String) {c : Cell α} {d : Cell β} (hc : SameCell R c d) :
    RelM R (fun _ _ => True) (logCell k c) (logCell k d) :=
  RelM.modify fun w w' h => { h with log := addVariable_same h.log k (.num h.st.pos) hc }

theorem logNum_same (k : String) {x : α} {y : β} (h : R x y) : RelM R (fun _ _ => True) (logNum k x) (logNum k y) :=
  logCell_same k (.num h)

/-! ### velocity, cover, fluxes -/

theorem velocityM_same {l : Lava α} {l' : Lava β} (hl : SameLava R l l') : RelM R R (meanVelocityM l) (meanVelocityM l') := by
  intro w w' hw a v hav
  obtain ⟨x, h1, rfl⟩ := meanVelocityM_ok hav
  obtain ⟨⟨b, y⟩, h2, h3, h4⟩ := velocity_same hl hw.terrain hw.st _ h1
  exact ⟨b, _, meanVelocityM_forward h2, h3, { hw with st := { hw.st with strain := h4 } }⟩

variable {m : Models α} {m' : Models β} (hm : ModelsAgree R m m')
include hm

theorem cover_same : RelM R R (effectiveCover m) (effectiveCover m') := by
  unfold effectiveCover
  refine RelM.bind RelM.get (fun w w' hw => ?_)
  refine RelM.bind (velocityM_same hm.lava) (fun v v' hv => RelM.pure ?_)
  have hpos := hw.st.pos
  have hc := hm.cover
  generalize m.cover = c at hc ⊢
  generalize m'.cover = c' at hc ⊢
  cases hc with
  | basic h h2 => simp only [CoverModel.value]; same
  | bimodal h h2 h3 h4 h5 => simp only [CoverModel.value]; exact ite_same (by same) (by same) (by same)

theorem crustM_same : RelM R R (crustTemperature m) (crustTemperature m') := by
  intro w w' hw a v hav
  obtain ⟨h1, rfl⟩ := Prod.mk.inj hav
  obtain ⟨b, h2, h3⟩ := crust_same hm.crust hw.st a h1
  exact ⟨b, w', by unfold crustTemperature; rw [h2], h3, hw⟩

theorem moltenM_same : RelM R R (moltenTemperature m) (moltenTemperature m') := by
  intro w w' hw a v hav
  obtain ⟨h1, rfl⟩ := Prod.mk.inj hav
  cases h1
  exact ⟨_, w', rfl, molten_same hm.lava hw.st, hw⟩

theorem radiationT_same : RelM R R (effectiveRadiationTemperature m) (effectiveRadiationTemperature m') := by
  unfold effectiveRadiationTemperature effectiveRadiationFormula
  have := hm.air.temp
  refine RelM.bind (cover_same hm) (fun f f' hf => ?_)
  refine RelM.bind (crustM_same hm) (fun tc tc' htc => ?_)
  refine RelM.bind (moltenM_same hm) (fun tm tm' htm => ?_)
  refine RelM.bind (S := R) (RelM.lift (by same)) (fun te te' hte => ?_)
  exact RelM.bind (logNum_same _ hte) (fun _ _ _ => RelM.pure hte)

omit hm in
theorem emiCont_same {x : α} {y : β} (h : R x y) : R (emissivityCont x) (emissivityCont y) := by unfold emissivityCont; same
omit hm in
theorem emiLin_same {x : α} {y : β} (h : R x y) : R (emissivityLin x) (emissivityLin y) := by unfold emissivityLin; same
omit hm in
theorem planck_same {x : α} {y : β} (h : R x y) : RelE R (planck x) (planck y) := by unfold planck; same
omit hm in
theorem radiance_same {a b c d e f g : α} {a' b' c' d' e' f' g' : β} (h1 : R a a') (h2 : R b b') (h3 : R c c') (h4 : R d d')
    (h5 : R e e') (h6 : R f f') (h7 : R g g') :
    RelE R (spectralRadianceFormula a b c d e f g) (spectralRadianceFormula a' b' c' d' e' f' g') := by
  unfold spectralRadianceFormula
  refine RelE.bind (S := R) (by same) (fun p p' hp => ?_)
  refine RelE.bind (S := R) (by same) (fun q q' hq => ?_)
  refine RelE.bind (planck_same h3) (fun x x' hx => ?_)
  refine RelE.bind (planck_same h4) (fun y y' hy => ?_)
  refine RelE.bind (planck_same (R := R) (by same)) (fun z z' hz => ?_)
  same

theorem spectral_same {p : α} {p' : β} (hp : R p p') {eps : α → α → α × α} {eps' : β → β → β × β}
    (he : ∀ x x' y y', R x x' → R y y' → R (eps x y).1 (eps' x' y').1 ∧ R (eps x y).2 (eps' x' y').2)
    {w : α} {w' : β} (hw : R w w') :
    RelM R (fun _ _ => True) (spectralRadiance m p eps w) (spectralRadiance m' p' eps' w') := by
  unfold spectralRadiance
  refine RelM.bind (cover_same hm) (fun f f' hf => ?_)
  refine RelM.bind (crustM_same hm) (fun tc tc' htc => ?_)
  refine RelM.bind (moltenM_same hm) (fun tm tm' htm => ?_)
  refine RelM.bind (RelM.lift (radiance_same hp hf htc htm (he _ _ _ _ htc htm).1 (he _ _ _ _ htc htm).2 hw))
    (fun r r' hr => logNum_same _ hr)

theorem radiationFlux_same {s : α} {s' : β} (hs : R s s') {e : PyM (World α) α} {e' : PyM (World β) β} (hee : RelM R R e e')
    {p : α} {p' : β} (hp : R p p') {eps : α → α → α × α} {eps' : β → β → β × β}
    (he : ∀ x x' y y', R x x' → R y y' → R (eps x y).1 (eps' x' y').1 ∧ R (eps x y).2 (eps' x' y').2)
    {w : α} {w' : β} (hw : R w w') : RelM R R (radiationFlux m s e p eps w) (radiationFlux m' s' e' p' eps' w') := by
  unfold radiationFlux
  refine RelM.bind (radiationT_same hm) (fun te te' hte => ?_)
  refine RelM.bind hee (fun x x' hx => ?_)
  refine RelM.bind (logNum_same _ hx) (fun _ _ _ => ?_)
  refine RelM.bind (spectral_same hm hp he hw) (fun _ _ _ => RelM.pure ?_)
  same

theorem compute_same {w d : α} {w' d' : β} (hw : R w w') (hd : R d d') {f : Flux α} {f' : Flux β} (hf : SameFlux R f f') :
    RelM R R (f.compute m w d) (f'.compute m' w' d') := by
  cases hf with
  | radBasic h h2 =>
    exact radiationFlux_same hm h (RelM.pure h2) (NumRel.lit _ _ _) (fun _ _ _ _ _ _ => ⟨h2, h2⟩) hw
  | radTwoEmi h h2 h3 =>
    refine radiationFlux_same hm h (RelM.bind (cover_same hm) (fun x x' hx => RelM.pure ?_)) (NumRel.lit _ _ _)
      (fun _ _ _ _ _ _ => ⟨h3, h2⟩) hw
    same
  | radCont h =>
    refine radiationFlux_same hm h (RelM.bind (cover_same hm) (fun f f' hf => RelM.bind (crustM_same hm) (fun tc tc' htc =>
      RelM.bind (moltenM_same hm) (fun tm tm' htm => RelM.pure ?_)))) (NumRel.lit _ _ _)
      (fun _ _ _ _ h1 h2 => ⟨emiCont_same h2, emiCont_same h1⟩) hw
    have := emiCont_same htc
    have := emiCont_same htm
    same
  | radLin h =>
    exact radiationFlux_same hm h (RelM.bind (radiationT_same hm) (fun x x' hx => RelM.pure (emiLin_same hx)))
      (NumRel.lit _ _ _) (fun _ _ _ _ h1 h2 => ⟨emiLin_same h2, emiLin_same h1⟩) hw
  | @conduction bt pct bt' pct' h h2 =>
    intro u u' hu a v hav
    obtain ⟨h3, rfl⟩ := Prod.mk.inj hav
    have := vesicles_same hm.lava.ves hu.st
    have := hu.st.temp
    have key : RelE R (do
        let k := PyNum.npow (1.929 - 1.554 * m.lava.vesicleFraction u.st) 2
        let p ← PyNum.div pct 100.0
        let q ← PyNum.div (u.st.temp - bt) (p * d)
        return k * q * w) (do
        let k := PyNum.npow (1.929 - 1.554 * m'.lava.vesicleFraction u'.st) 2
        let p ← PyNum.div pct' 100.0
        let q ← PyNum.div (u'.st.temp - bt') (p * d')
        return k * q * w') := by
      unfold Lava.vesicleFraction
      dsimp only
      same
    obtain ⟨b, h4, h5⟩ := key a h3
    exact ⟨b, u', Prod.ext h4 rfl, h5, hu⟩
  | convection =>
    have := hm.air.temp
    have hcc : R m.air.convCoef m'.air.convCoef :=
      NumRel.mul (NumRel.mul (NumRel.mul hm.air.ch hm.air.rho) hm.air.cp) hm.air.wind
    refine RelM.bind (crustM_same hm) (fun tc tc' htc => ?_)
    refine RelM.bind (cover_same hm) (fun f f' hf => ?_)
    refine RelM.bind (moltenM_same hm) (fun tm tm' htm => ?_)
    refine RelM.bind (S := R) (RelM.lift (by unfold characteristicFormula; same)) (fun t t' ht => ?_)
    refine RelM.bind (logNum_same _ ht) (fun _ _ _ => ?_)
    refine RelM.bind (logNum_same _ (NumRel.lit _ _ _)) (fun _ _ _ => ?_)
    refine RelM.bind (logNum_same _ (NumRel.lit _ _ _)) (fun _ _ _ => RelM.pure ?_)
    same
  | rain h h2 h3 => exact RelM.pure (by same)
  | viscous =>
    refine RelM.bind RelM.get (fun u u' hu => ?_)
    refine RelM.bind (RelM.lift (viscosity_same hm.lava hu.st)) (fun x x' hx => ?_)
    refine RelM.bind (velocityM_same hm.lava) (fun v v' hv => ?_)
    refine RelM.bind (S := R) (RelM.lift (by same)) (fun q q' hq => RelM.pure ?_)
    same
  | snyder =>
    refine RelM.bind (crustM_same hm) (fun tc tc' htc => ?_)
    refine RelM.bind (cover_same hm) (fun f f' hf => ?_)
    refine RelM.bind (moltenM_same hm) (fun tm tm' htm => ?_)
    have ht : R (f * tc + (1.0 - f) * tm) (f' * tc' + (1.0 - f') * tm') := by same
    refine RelM.bind (logNum_same _ ht) (fun _ _ _ => ?_)
    refine RelM.bind (S := R) (RelM.lift (by same)) (fun p p' hp => ?_)
    refine RelM.bind (logNum_same _ (NumRel.lit _ _ _)) (fun _ _ _ => ?_)
    refine RelM.bind (logNum_same _ (NumRel.lit _ _ _)) (fun _ _ _ => ?_)
    refine RelM.bind (logNum_same _ (NumRel.lit _ _ _)) (fun _ _ _ => ?_)
    refine RelM.bind (logNum_same _ (NumRel.lit _ _ _)) (fun _ _ _ => RelM.pure ?_)
    same

omit hm in
theorem logName_same {f : Flux α} {f' : Flux β} (hf : SameFlux R f f') : f.logName = f'.logName := by cases hf <;> rfl

theorem budgetLoop_same {w d : α} {w' d' : β} (hw : R w w') (hd : R d d') {l : List (Flux α)} {l' : List (Flux β)}
    (h : List.Forall₂ (SameFlux R) l l') : ∀ {x : α} {x' : β}, R x x' →
    RelM R R (heatBudgetLoop m w d l x) (heatBudgetLoop m' w' d' l' x') := by
  induction h with
  | nil => intro x x' hx; exact RelM.pure hx
  | cons hf h ih =>
    intro x x' hx
    rw [heatBudgetLoop, heatBudgetLoop]
    refine RelM.bind (compute_same hm hw hd hf) (fun q q' hq => ?_)
    refine RelM.bind (compute_same hm hw hd hf) (fun q2 q2' hq2 => ?_)
    rw [logName_same hf]
    exact RelM.bind (logNum_same _ hq2) (fun _ _ _ => ih (NumRel.add hx hq))

theorem budget_same {w d : α} {w' d' : β} (hw : R w w') (hd : R d d') :
    RelM R R (heatBudget m w d) (heatBudget m' w' d') := by
  unfold heatBudget
  refine RelM.bind (budgetLoop_same hm hw hd hm.fluxes (NumRel.lit _ _ _)) (fun t t' ht => ?_)
  exact RelM.bind (logNum_same _ ht) (fun _ _ _ => RelM.pure ht)

end

/-! ### the step -/

section
variable {α β : Type} [Add α] [Sub α] [Mul α] [Neg α] [OfScientific α] [PyNum α]
  [Add β] [Sub β] [Mul β] [Neg β] [OfScientific β] [PyNum β] {R : α → β → Prop} [NumRel R]

/-- The same local variables of a step. -/
structure SameStep (R : α → β → Prop) (d : StepData α) (d' : StepData β) : Prop where
  v : R d.v d'.v
  depth : R d.depth d'.depth
  width : R d.width d'.width
  slope : R d.slope d'.slope
  heat : R d.heat d'.heat
  rate : R d.rate d'.rate
  dtempDx : R d.dtempDx d'.dtempDx
  dtempDt : R d.dtempDt d'.dtempDt
  dphiDx : R d.dphiDx d'.dphiDx
  newPhi : R d.newPhi d'.newPhi
  newTemp : R d.newTemp d'.newTemp

theorem widthOf_same (mass : Bool) {e v d r : α} {e' v' d' r' : β} {f : Option α} {f' : Option β} (he : R e e')
    (hf : SameOption R f f') (hv : R v v') (hd : R d d') (hr : R r r') :
    RelE R (channelWidth mass e f v d r) (channelWidth mass e' f' v' d' r') := by
  unfold channelWidth
  refine RelE.ite rfl ?_ (by same)
  cases hf with
  | none => exact RelE.error
  | some hx => dsimp only; same

variable {g : Integrator α} {g' : Integrator β} (hg : SameIntegrator R g g')
include hg

omit hg in
theorem setRate_same {v : α} {v' : β} (hv : R v v') : RelM R (fun _ _ => True) (setEffusionRate v) (setEffusionRate v') :=
  RelM.modify fun w w' h => by
    have hi : (w'.iteration == 0) = (w.iteration == 0) := by rw [h.iteration]
    rw [hi]
    split
    · exact { h with rate := NumRel.mul (NumRel.mul hv h.terrain.width) h.terrain.depth }
    · exact h

theorem stepCompute_same {v : α} {v' : β} (hv : R v v') : RelM R (SameStep R) (stepCompute g v) (stepCompute g' v') := by
  unfold stepCompute
  refine RelM.bind (setRate_same hv) (fun _ _ _ => ?_)
  refine RelM.bind RelM.get (fun w w' hw => ?_)
  have hd := density_same hg.models.lava hw.st
  have hdx := hg.dx
  have hlat := hg.models.lava.latent
  have hdep := hw.terrain.depth
  dsimp only
  rw [← hg.mass]
  refine RelM.bind (RelM.lift (widthOf_same _ hw.rate hw.flux hv hdep hd)) (fun wd wd' hwd => ?_)
  refine RelM.bind (RelM.lift (slope_same hw.terrain hw.st.pos)) (fun sl sl' hsl => ?_)
  refine RelM.bind (budget_same hg.models hwd hdep) (fun q q' hq => ?_)
  refine RelM.bind RelM.get (fun u u' hu => ?_)
  have := hu.st.crystal
  have := hu.st.temp
  have := hu.rate
  refine RelM.bind (RelM.lift (rate_same hg.models.cryst hu.st)) (fun r r' hr => ?_)
  refine RelM.bind (S := R) (RelM.lift (by same)) (fun t t' ht => RelM.pure ?_)
  constructor <;> dsimp only <;> same

theorem stepLog_same {d : StepData α} {d' : StepData β} (hd : SameStep R d d') :
    RelM R (fun _ _ => True) (stepLog g d) (stepLog g' d') := by
  have hl := hg.models.lava
  unfold stepLog
  dsimp only
  refine RelM.bind RelM.get (fun w w' hw => ?_)
  refine RelM.bind (logNum_same _ hd.width) (fun _ _ _ => ?_)
  refine RelM.bind (logNum_same _ hw.st.crystal) (fun _ _ _ => ?_)
  refine RelM.bind (logNum_same _ hw.st.temp) (fun _ _ _ => ?_)
  refine RelM.bind (logNum_same _ hw.st.strain) (fun _ _ _ => ?_)
  refine RelM.bind (logNum_same _ (vesicles_same hl.ves hw.st)) (fun _ _ _ => ?_)
  refine RelM.bind (RelM.lift (viscosity_same hl hw.st)) (fun visc visc' hvisc => ?_)
  refine RelM.bind (logNum_same _ hvisc) (fun _ _ _ => ?_)
  refine RelM.bind (logNum_same _ (density_same hl hw.st)) (fun _ _ _ => ?_)
  refine RelM.bind (logNum_same _ hd.v) (fun _ _ _ => ?_)
  refine RelM.bind (crustM_same hg.models) (fun tc tc' htc => ?_)
  refine RelM.bind (logNum_same _ htc) (fun _ _ _ => ?_)
  refine RelM.bind (cover_same hg.models) (fun f f' hf => ?_)
  refine RelM.bind (logNum_same _ hf) (fun _ _ _ => ?_)
  refine RelM.bind (logNum_same _ hd.dphiDx) (fun _ _ _ => ?_)
  refine RelM.bind (logNum_same _ hd.dtempDx) (fun _ _ _ => ?_)
  refine RelM.bind (logNum_same _ hd.rate) (fun _ _ _ => ?_)
  refine RelM.bind (logNum_same _ hd.dtempDt) (fun _ _ _ => ?_)
  refine RelM.bind (logNum_same _ hd.slope) (fun _ _ _ => ?_)
  refine RelM.bind RelM.get (fun u u' hu => ?_)
  refine RelM.bind (logCell_same _ (.text hu.rate)) (fun _ _ _ => ?_)
  refine RelM.bind (logNum_same _ hd.depth) (fun _ _ _ => ?_)
  refine RelM.bind (RelM.lift (yield_same hl.yld hu.st)) (fun t0 t0' ht0 => ?_)
  refine RelM.bind (logNum_same _ ht0) (fun _ _ _ => ?_)
  refine RelM.bind (RelM.lift (basal_same hl hu.terrain hu.st)) (fun tb tb' htb => ?_)
  exact logNum_same _ htb

theorem stepUpdate_same {d : StepData α} {d' : StepData β} (hd : SameStep R d d') :
    RelM R (fun _ _ => True) (stepUpdate g d) (stepUpdate g' d') := by
  have hdx := hg.dx
  have hv := hd.v
  have hdep := hd.depth
  unfold stepUpdate
  refine RelM.bind (RelM.modify fun w w' h => { h with st := { h.st with crystal := hd.newPhi, temp := hd.newTemp, pos := NumRel.add h.st.pos hdx } }) (fun _ _ _ => ?_)
  refine RelM.bind (S := R) (RelM.lift (by same)) (fun dt dt' hdt => ?_)
  refine RelM.bind (RelM.modify fun w w' h => { h with st := { h.st with time := NumRel.add h.st.time hdt } }) (fun _ _ _ => ?_)
  refine RelM.bind (S := R) (RelM.lift (by same)) (fun s s' hs => ?_)
  exact RelM.modify fun w w' h => { h with st := { h.st with strain := hs }, iteration := by rw [h.iteration] }

omit hg in
theorem finished_same : RelM R (fun _ _ => True) setFinished setFinished :=
  RelM.modify fun w w' h => { h with finished := rfl }

theorem stepStop_same {d : StepData α} {d' : StepData β} (hd : SameStep R d d') :
    RelM R (fun _ _ => True) (stepStop g d) (stepStop g' d') := by
  unfold stepStop
  refine RelM.bind RelM.get (fun w w' hw => ?_)
  refine RelM.ite (NumRel.le hd.newTemp (solid_same hg.models.cryst)) finished_same ?_
  refine RelM.bind (RelM.lift (notCompatible_same hg.models.lava.rel hw.st)) (fun b b' hb => ?_)
  refine RelM.ite hb finished_same ?_
  refine RelM.bind (RelM.lift (yieldNot_same hg.models.lava hw.terrain hw.st)) (fun c c' hc => ?_)
  refine RelM.ite hc finished_same ?_
  exact RelM.ite (NumRel.le hw.terrain.length hw.st.pos) finished_same (RelM.pure trivial)

theorem step_same : RelM R (fun _ _ => True) (singleStep g) (singleStep g') := by
  unfold singleStep
  refine RelM.bind (velocityM_same hg.models.lava) (fun v v' hv => ?_)
  refine RelM.ite (NumRel.le hv (NumRel.lit _ _ _)) finished_same ?_
  refine RelM.bind (stepCompute_same hg hv) (fun d d' hd => ?_)
  refine RelM.bind RelM.get (fun w w' hw => ?_)
  refine RelM.ite (NumRel.le hd.newPhi hw.st.crystal) finished_same ?_
  refine RelM.bind (stepLog_same hg hd) (fun _ _ _ => ?_)
  exact RelM.bind (stepUpdate_same hg hd) (fun _ _ _ => stepStop_same hg hd)

/-- A loop that ends, or is still running, without an exception so far. -/
theorem runLoop_same (n : Nat) : ∀ {w : World α} {w' : World β}, SameWorld R w w' →
    (∀ v, runLoop g n w = some (.ok (), v) → ∃ v', runLoop g' n w' = some (.ok (), v') ∧ SameWorld R v v') ∧
    (runLoop g n w = none → runLoop g' n w' = none) := by
  induction n with
  | zero =>
    intro w w' hw
    simp only [runLoop, ← hw.finished]
    refine ⟨fun v h => ?_, fun h => ?_⟩
    · split at h
      · rename_i hf
        cases h
        exact ⟨w', by simp [hf], hw⟩
      · cases h
    · split at h
      · cases h
      · rename_i hf; simp [hf]
  | succ n ih =>
    intro w w' hw
    simp only [runLoop, ← hw.finished]
    by_cases hf : w.finished = true
    · simp only [hf, if_true]
      exact ⟨fun v h => by cases h; exact ⟨w', rfl, hw⟩, fun h => by cases h⟩
    · simp only [hf]
      rcases hs : singleStep g w with ⟨r, u⟩
      cases r with
      | error e => exact ⟨fun v h => (by simp at h), fun h => (by simp at h)⟩
      | ok a =>
        obtain ⟨b, u', h2, _, hu⟩ := step_same hg w w' hw a u hs
        rw [h2]
        exact ih hu

omit hg in
theorem search_same {l : Lava α} {l' : Lava β} (hl : SameLava R l l') {ds : List α} {ds' : List β}
    (h : List.Forall₂ R ds ds') : RelM R (fun _ _ => True) (depthSearch l ds) (depthSearch l' ds') := by
  induction h with
  | nil => exact RelM.pure trivial
  | @cons d d' _ _ hd h ih =>
    rw [depthSearch, depthSearch]
    refine RelM.bind (RelM.modify fun w w' h => { h with terrain := { h.terrain with depth := hd } }) (fun _ _ _ => ?_)
    refine RelM.bind (velocityM_same hl) (fun v v' hv => ?_)
    refine RelM.bind (RelM.modify fun w w' h => { h with rate := NumRel.mul (NumRel.mul hv h.terrain.width) hd }) (fun _ _ _ => ?_)
    refine RelM.bind (RelM.modify fun w w' h => { h with flux := .some (NumRel.mul h.rate (density_same hl h.st)) }) (fun _ _ _ => ?_)
    refine RelM.bind RelM.get (fun w w' hw => ?_)
    exact RelM.ite (NumRel.le hw.terrain.rate hw.rate) (RelM.pure trivial) ih

omit hg in
theorem init_same {l : Lava α} {l' : Lava β} (hl : SameLava R l l') {ds : List α} {ds' : List β}
    (h : List.Forall₂ R ds ds') : RelM R (fun _ _ => True) (initEffusionRateOn ds l) (initEffusionRateOn ds' l') := by
  unfold initEffusionRateOn
  refine RelM.bind RelM.get (fun w w' hw => ?_)
  exact RelM.ite (NumRel.eq hw.terrain.rate (NumRel.lit _ _ _)) (RelM.pure trivial) (search_same hl h)

theorem simulate_same {ds : List α} {ds' : List β} (h : List.Forall₂ R ds ds') (n : Nat) {w : World α} {w' : World β}
    (hw : SameWorld R w w') :
    (∀ v, simulateOn ds n g w = some (.ok (), v) →
      ∃ v', simulateOn ds' n g' w' = some (.ok (), v') ∧ SameWorld R v v') ∧
    (simulateOn ds n g w = none → simulateOn ds' n g' w' = none) := by
  unfold simulateOn
  rcases hs : initEffusionRateOn ds g.models.lava w with ⟨r, u⟩
  cases r with
  | error e => exact ⟨fun v h => (by simp at h), fun h => (by simp at h)⟩
  | ok a =>
    obtain ⟨b, u', h2, _, hu⟩ := init_same hg.models.lava h w w' hw a u hs
    rw [h2]
    exact runLoop_same hg n hu

omit hg in
theorem rowKeys_same {r : Row (Cell α)} {r' : Row (Cell β)} (h : SameRow R r r') : r.keys = r'.keys := by
  unfold Row.keys
  induction h with
  | nil => rfl
  | cons hxy h ih => rw [List.map_cons, List.map_cons, hxy.1, ih]

omit hg in
theorem csvRow_same {r : Row (Cell α)} {r' : Row (Cell β)} (h : SameRow R r r') (hd : List String) :
    RelE (List.Forall₂ (SameOption (SameCell R))) (csvRow hd r) (csvRow hd r') := by
  unfold csvRow
  rw [rowKeys_same h]
  refine RelE.ite rfl (RelE.ok ?_) RelE.error
  induction hd with
  | nil => exact .nil
  | cons k ks ih => exact .cons (rowGet_same h k) ih

omit hg in
theorem csvRows_same {l : Log (Cell α)} {l' : Log (Cell β)} (h : SameLog R l l') (hd : List String) :
    RelE (List.Forall₂ (List.Forall₂ (SameOption (SameCell R)))) (l.mapM (csvRow hd)) (l'.mapM (csvRow hd)) := by
  induction h with
  | nil => exact RelE.ok .nil
  | cons hr h ih =>
    rw [List.mapM_cons, List.mapM_cons]
    refine RelE.bind (csvRow_same hr hd) (fun a b hab => ?_)
    exact RelE.bind ih (fun c d hcd => RelE.ok (.cons hab hcd))

omit hg in
theorem writeValues_same {l : Log (Cell α)} {l' : Log (Cell β)} (h : SameLog R l l') :
    RelE (SameOption (SameTable R)) (writeValues l) (writeValues l') := by
  unfold writeValues
  have h0 := h
  cases h with
  | nil => exact RelE.ok .none
  | cons hr h =>
    dsimp only
    rw [rowKeys_same hr]
    exact RelE.bind (csvRows_same h0 _) (fun a b hab => RelE.ok (.some ⟨rfl, hab⟩))

end
end PyFlowGo
