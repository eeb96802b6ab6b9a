import Verif.Proofs.SameLaws
/-
  Two sets of models that give the same values up to a place take the same steps up to there.
-/
set_option linter.unusedSectionVars false
set_option linter.unusedSimpArgs false
namespace PyFlowGo
variable {α : Type} [Add α] [Sub α] [Mul α] [Neg α] [OfScientific α] [PyNum α]

/-- The sets of models differ at most in crust, cover and crystallisation, and these give the same values at the positions `P`. -/
structure LawsAt (P : α → Prop) (m m' : Models α) : Prop where
  lava : m'.lava = m.lava
  air : m'.air = m.air
  fluxes : m'.fluxes = m.fluxes
  crust : ∀ s, P s.pos → m.crust.temperature s = m'.crust.temperature s
  cover : ∀ pos v, P pos → m.cover.value pos v = m'.cover.value pos v
  rate : ∀ s, P s.pos → m.cryst.rate s = m'.cryst.rate s
  crystals : ∀ t, m.cryst.crystalFraction t = m'.cryst.crystalFraction t
  solid : m.cryst.solidTemperature = m'.cryst.solidTemperature

/-- From a world at a position `P` two programs do the same and stay there. -/
def EqAt {β : Type} (P : α → Prop) (x y : PyM (World α) β) : Prop := ∀ w, P w.st.pos → x w = y w ∧ P (x w).2.st.pos

variable {P : α → Prop} {m m' : Models α}

theorem EqAt.keeps {β : Type} {x : PyM (World α) β} (h : ∀ w, (x w).2.st.pos = w.st.pos) : EqAt P x x := fun w hw => ⟨rfl, by rw [h]; exact hw⟩

theorem EqAt.bind {β γ : Type} {x y : PyM (World α) β} {f g : β → PyM (World α) γ} (h : EqAt P x y) (hf : ∀ a, EqAt P (f a) (g a)) : EqAt P (x >>= f) (y >>= g) := by
  intro w hw
  obtain ⟨h1, h2⟩ := h w hw
  cases e : x w with
  | mk r w1 =>
    rw [e] at h1 h2
    cases r with
    | ok a =>
      rw [PyM.bind_of_ok e, PyM.bind_of_ok h1.symm]
      exact hf a w1 h2
    | error er =>
      have a : (x >>= f) w = (.error er, w1) := PyM.bind_of_error e
      have b : (y >>= g) w = (.error er, w1) := PyM.bind_of_error h1.symm
      rw [a, b]
      exact ⟨rfl, h2⟩

theorem EqAt.get {γ : Type} {f g : World α → PyM (World α) γ} (hf : ∀ w, P w.st.pos → EqAt P (f w) (g w)) : EqAt P (PyM.get >>= f) (PyM.get >>= g) := by
  intro w hw
  rw [PyM.bind_of_ok (PyM.get_apply _), PyM.bind_of_ok (PyM.get_apply _)]
  exact hf w hw w hw

theorem eqAt_pure {β : Type} (a : β) : EqAt P (pure a : PyM (World α) β) (pure a) := .keeps fun _ => rfl
theorem eqAt_lift {β : Type} (a : Except Err β) : EqAt P (PyM.lift a : PyM (World α) β) (PyM.lift a) := .keeps fun _ => by cases a <;> rfl
theorem eqAt_logNum (k : String) (x : α) : EqAt P (logNum k x) (logNum k x) := .keeps fun _ => rfl
theorem eqAt_logCell (k : String) (x : Cell α) : EqAt P (logCell k x) (logCell k x) := .keeps fun _ => rfl
theorem eqAt_velocity (l : Lava α) : EqAt P (meanVelocityM l) (meanVelocityM l) := .keeps fun w => by
  unfold meanVelocityM
  split <;> rfl

theorem eqAt_cover (h : LawsAt P m m') : EqAt P (effectiveCover m) (effectiveCover m') := by
  unfold effectiveCover
  rw [h.lava]
  refine .get fun w hw => .bind (eqAt_velocity _) fun v => ?_
  rw [h.cover _ _ hw]
  exact eqAt_pure _

theorem eqAt_crust (h : LawsAt P m m') : EqAt P (crustTemperature m) (crustTemperature m') := by
  intro w hw
  unfold crustTemperature
  rw [h.crust _ hw]
  exact ⟨rfl, hw⟩

theorem eqAt_molten (h : LawsAt P m m') : EqAt P (moltenTemperature m) (moltenTemperature m') := by
  intro w hw
  unfold moltenTemperature
  rw [h.lava]
  exact ⟨rfl, hw⟩

theorem eqAt_radiation (h : LawsAt P m m') : EqAt P (effectiveRadiationTemperature m) (effectiveRadiationTemperature m') := by
  unfold effectiveRadiationTemperature
  rw [h.air]
  exact .bind (eqAt_cover h) fun _ => .bind (eqAt_crust h) fun _ => .bind (eqAt_molten h) fun _ => .bind (eqAt_lift _) fun _ => .bind (eqAt_logNum _ _) fun _ => eqAt_pure _

theorem eqAt_radiationFlux (h : LawsAt P m m') (sigma : α) (e e' : PyM (World α) α) (he : EqAt P e e') (lp : α) (eps : α → α → α × α) (width : α) :
    EqAt P (radiationFlux m sigma e lp eps width) (radiationFlux m' sigma e' lp eps width) := by
  unfold radiationFlux spectralRadiance
  exact .bind (eqAt_radiation h) fun _ => .bind he fun _ => .bind (eqAt_logNum _ _) fun _ =>
    .bind (.bind (eqAt_cover h) fun _ => .bind (eqAt_crust h) fun _ => .bind (eqAt_molten h) fun _ => .bind (eqAt_lift _) fun _ => eqAt_logNum _ _) fun _ => eqAt_pure _

theorem eqAt_flux (h : LawsAt P m m') (width depth : α) (f : Flux α) : EqAt P (f.compute m width depth) (f.compute m' width depth) := by
  cases f with
  | radBasic s e => exact eqAt_radiationFlux h _ _ _ (eqAt_pure _) _ _ _
  | radTwoEmi s e1 e2 => exact eqAt_radiationFlux h _ _ _ (.bind (eqAt_cover h) fun _ => eqAt_pure _) _ _ _
  | radCont s => exact eqAt_radiationFlux h _ _ _ (.bind (eqAt_cover h) fun _ => .bind (eqAt_crust h) fun _ => .bind (eqAt_molten h) fun _ => eqAt_pure _) _ _ _
  | radLin s => exact eqAt_radiationFlux h _ _ _ (.bind (eqAt_radiation h) fun _ => eqAt_pure _) _ _ _
  | conduction b p =>
    unfold Flux.compute
    rw [h.lava]
    exact .keeps fun _ => rfl
  | convection =>
    unfold Flux.compute
    rw [h.air]
    exact .bind (eqAt_crust h) fun _ => .bind (eqAt_cover h) fun _ => .bind (eqAt_molten h) fun _ => .bind (eqAt_lift _) fun _ => .bind (eqAt_logNum _ _) fun _ =>
      .bind (eqAt_logNum _ _) fun _ => .bind (eqAt_logNum _ _) fun _ => eqAt_pure _
  | rain a b c => exact eqAt_pure _
  | viscous =>
    unfold Flux.compute
    rw [h.lava]
    exact .get fun w hw => .bind (eqAt_lift _) fun _ => .bind (eqAt_velocity _) fun _ => .bind (eqAt_lift _) fun _ => eqAt_pure _
  | snyder =>
    exact .bind (eqAt_crust h) fun _ => .bind (eqAt_cover h) fun _ => .bind (eqAt_molten h) fun _ => .bind (eqAt_logNum _ _) fun _ => .bind (eqAt_lift _) fun _ =>
      .bind (eqAt_logNum _ _) fun _ => .bind (eqAt_logNum _ _) fun _ => .bind (eqAt_logNum _ _) fun _ => .bind (eqAt_logNum _ _) fun _ => eqAt_pure _

theorem eqAt_budget (h : LawsAt P m m') (width depth : α) : EqAt P (heatBudget m width depth) (heatBudget m' width depth) := by
  have loop : ∀ (fs : List (Flux α)) (acc : α), EqAt P (heatBudgetLoop m width depth fs acc) (heatBudgetLoop m' width depth fs acc) := by
    intro fs
    induction fs with
    | nil => exact fun acc => eqAt_pure _
    | cons f rest ih =>
      intro acc
      unfold heatBudgetLoop
      exact .bind (eqAt_flux h _ _ f) fun _ => .bind (eqAt_flux h _ _ f) fun _ => .bind (eqAt_logNum _ _) fun _ => ih _
  unfold heatBudget
  rw [h.fluxes]
  exact .bind (loop _ _) fun _ => .bind (eqAt_logNum _ _) fun _ => eqAt_pure _

theorem eqAt_compute (h : LawsAt P m m') (dx : α) (mass : Bool) (v : α) : EqAt P (stepCompute ⟨dx, m, mass⟩ v) (stepCompute ⟨dx, m', mass⟩ v) := by
  unfold stepCompute
  dsimp only
  rw [h.lava]
  refine .bind (.keeps fun w => ?_) fun _ => .get fun w hw => .bind (eqAt_lift _) fun _ => .bind (eqAt_lift _) fun _ => .bind (eqAt_budget h _ _) fun _ => .get fun w2 hw2 => ?_
  · unfold setEffusionRate PyM.modify
    dsimp only
    split <;> rfl
  · rw [h.rate _ hw2]
    exact .bind (eqAt_lift _) fun _ => .bind (eqAt_lift _) fun _ => eqAt_pure _

theorem eqAt_log (h : LawsAt P m m') (dx : α) (mass : Bool) (d : StepData α) : EqAt P (stepLog ⟨dx, m, mass⟩ d) (stepLog ⟨dx, m', mass⟩ d) := by
  unfold stepLog
  dsimp only
  rw [h.lava]
  refine .get fun w hw => ?_
  repeat first
    | exact eqAt_logNum _ _
    | refine EqAt.bind (eqAt_logNum _ _) fun _ => ?_
    | refine EqAt.bind (eqAt_logCell _ _) fun _ => ?_
    | refine EqAt.bind (eqAt_lift _) fun _ => ?_
    | refine EqAt.bind (eqAt_crust h) fun _ => ?_
    | refine EqAt.bind (eqAt_cover h) fun _ => ?_
    | refine EqAt.get fun w hw => ?_

/-- A step from a position `P` is the same. -/
theorem laws_step_at (h : LawsAt P m m') (dx : α) (mass : Bool) (w : World α) (hw : P w.st.pos) : singleStep ⟨dx, m, mass⟩ w = singleStep ⟨dx, m', mass⟩ w := by
  unfold singleStep
  dsimp only
  rw [h.lava]
  obtain ⟨_, k⟩ := eqAt_velocity (P := P) m.lava w hw
  cases e : meanVelocityM m.lava w with
  | mk r w1 =>
    rw [e] at k
    cases r with
    | error er => rw [PyM.bind_of_error e, PyM.bind_of_error e]
    | ok v =>
      rw [PyM.bind_of_ok e, PyM.bind_of_ok e]
      split
      · rfl
      obtain ⟨a, b⟩ := eqAt_compute h dx mass v w1 k
      cases e2 : stepCompute ⟨dx, m, mass⟩ v w1 with
      | mk r w2 =>
        rw [e2] at a b
        cases r with
        | error er => rw [PyM.bind_of_error e2, PyM.bind_of_error a.symm]
        | ok d =>
          rw [PyM.bind_of_ok e2, PyM.bind_of_ok a.symm, PyM.bind_of_ok (PyM.get_apply _), PyM.bind_of_ok (PyM.get_apply _)]
          split
          · rfl
          obtain ⟨a3, b3⟩ := eqAt_log h dx mass d w2 b
          have stop : stepStop ⟨dx, m, mass⟩ d = stepStop ⟨dx, m', mass⟩ d := by
            unfold stepStop
            dsimp only
            rw [h.lava, h.solid]
          have upd : stepUpdate ⟨dx, m, mass⟩ d = stepUpdate ⟨dx, m', mass⟩ d := rfl
          rw [stop, upd]
          cases e3 : stepLog ⟨dx, m, mass⟩ d w2 with
          | mk r w3 =>
            rw [e3] at a3
            cases r with
            | error er => rw [PyM.bind_of_error e3, PyM.bind_of_error a3.symm]
            | ok u => rw [PyM.bind_of_ok e3, PyM.bind_of_ok a3.symm]

end PyFlowGo
