import Verif.Props.RunLog
/-
  Nothing in a simulation step looks at the log: what a step computes, whether it raises, and which `add_variable` calls it
  makes do not depend on what is in the log.
-/
set_option linter.unusedSectionVars false
namespace PyFlowGo
open Spec
variable {α : Type} [Add α] [Sub α] [Mul α] [Neg α] [OfScientific α] [PyNum α]

/-- From every state of the run's own objects, `m` makes the same calls of the logger whatever the log is, and neither its outcome
    nor what it does to the own objects depends on the log. -/
def Traced {β : Type} (m : PyM (World α) β) : Prop :=
  ∀ w, ∃ ops : List (LogOp (Cell α)), (∀ o ∈ ops, o.name ≠ "position" ∧ o.position = .num w.st.pos) ∧
    (m w).2.st.pos = w.st.pos ∧
    ∀ L, m { w with log := L } = ((m w).1, { (m w).2 with log := replay L ops })

namespace Traced
variable {β γ : Type}

theorem of_own {m : PyM (World α) β} (h : ∀ w, (m w).2.st.pos = w.st.pos)
    (h' : ∀ w L, m { w with log := L } = ((m w).1, { (m w).2 with log := L })) : Traced m :=
  fun w => ⟨[], by simp, h w, fun L => h' w L⟩

theorem pure (b : β) : Traced (Pure.pure b : PyM (World α) β) := of_own (fun _ => rfl) fun _ _ => rfl
theorem lift (x : Except Err β) : Traced (PyM.lift x : PyM (World α) β) := of_own (fun _ => rfl) fun _ _ => rfl

theorem bind {m : PyM (World α) β} {f : β → PyM (World α) γ} (hm : Traced m) (hf : ∀ b, Traced (f b)) : Traced (m >>= f) := by
  intro w
  obtain ⟨o1, h1, h2, h3⟩ := hm w
  cases h : m w with
  | mk r w1 =>
    rw [h] at h2 h3
    cases r with
    | error e =>
      refine ⟨o1, h1, ?_, fun L => ?_⟩
      · rw [PyM.bind_apply, h]; exact h2
      · rw [PyM.bind_apply, h3 L, PyM.bind_apply, h]
    | ok b =>
      obtain ⟨o2, h4, h5, h6⟩ := hf b w1
      refine ⟨o1 ++ o2, ?_, ?_, fun L => ?_⟩
      · intro o ho
        rcases List.mem_append.mp ho with ho | ho
        · exact h1 o ho
        · have := h4 o ho
          dsimp only at h2
          rw [h2] at this
          exact this
      · rw [PyM.bind_apply, h]
        exact h5.trans h2
      · rw [PyM.bind_apply, h3 L, PyM.bind_apply, h, replay_append]
        exact h6 _

theorem get {f : World α → PyM (World α) γ} (hl : ∀ w L, f { w with log := L } = f w) (hf : ∀ w, Traced (f w)) :
    Traced (PyM.get >>= f) := by
  intro w
  obtain ⟨ops, h1, h2, h3⟩ := hf w w
  refine ⟨ops, h1, h2, fun L => ?_⟩
  have := h3 L
  rw [← hl w L] at this
  exact this.trans (by rw [hl w L]; rfl)

theorem modify {f : World α → World α} (hp : ∀ w, (f w).st.pos = w.st.pos) (hl : ∀ w L, f { w with log := L } = { f w with log := L }) :
    Traced (PyM.modify f) := by
  refine of_own hp fun w L => ?_
  show (Except.ok (), f { w with log := L }) = (Except.ok (), { f w with log := L })
  rw [hl w L]

theorem logCell {n : String} (hn : n ≠ "position") (v : Cell α) : Traced (PyFlowGo.logCell n v) := fun w =>
  ⟨[⟨n, .num w.st.pos, v⟩], by
    intro o ho
    rw [List.mem_singleton] at ho
    subst ho
    exact ⟨hn, rfl⟩, rfl, fun _ => rfl⟩

theorem logNum {n : String} (hn : n ≠ "position") (v : α) : Traced (PyFlowGo.logNum n v) := logCell hn _

theorem velocity (l : Lava α) : Traced (meanVelocityM l) := by
  refine of_own (fun w => ?_) fun w L => ?_
  · unfold meanVelocityM
    cases l.meanVelocity w.terrain w.st with
    | error e => rfl
    | ok r => rfl
  · unfold meanVelocityM
    dsimp only
    cases l.meanVelocity w.terrain w.st with
    | error e => rfl
    | ok r => rfl

theorem crust (m : Models α) : Traced (crustTemperature m) := of_own (fun _ => rfl) fun _ _ => rfl
theorem molten (m : Models α) : Traced (moltenTemperature m) := of_own (fun _ => rfl) fun _ _ => rfl

theorem cover (m : Models α) : Traced (effectiveCover m) := by
  unfold effectiveCover
  exact get (fun _ _ => rfl) fun _ => bind (velocity _) fun _ => pure _

theorem effRad (m : Models α) : Traced (effectiveRadiationTemperature m) := by
  unfold effectiveRadiationTemperature
  exact bind (cover m) fun _ => bind (crust m) fun _ => bind (molten m) fun _ => bind (lift _) fun _ =>
    bind (logNum (by decide) _) fun _ => pure _

theorem spectral (m : Models α) (lp : α) (eps : α → α → α × α) (width : α) : Traced (spectralRadiance m lp eps width) := by
  unfold spectralRadiance
  exact bind (cover m) fun _ => bind (crust m) fun _ => bind (molten m) fun _ => bind (lift _) fun _ => logNum (by decide) _

theorem radiation (m : Models α) (sigma : α) (e : PyM (World α) α) (he : Traced e) (lp : α) (eps : α → α → α × α) (width : α) :
    Traced (radiationFlux m sigma e lp eps width) := by
  unfold radiationFlux
  exact bind (effRad m) fun _ => bind he fun _ => bind (logNum (by decide) _) fun _ => bind (spectral m _ _ _) fun _ => pure _

theorem flux (m : Models α) (width depth : α) (f : Flux α) : Traced (f.compute m width depth) := by
  cases f with
  | radBasic s e => exact radiation m _ _ (pure _) _ _ _
  | radTwoEmi s e1 e2 => exact radiation m _ _ (bind (cover m) fun _ => pure _) _ _ _
  | radCont s => exact radiation m _ _ (bind (cover m) fun _ => bind (crust m) fun _ => bind (molten m) fun _ => pure _) _ _ _
  | radLin s => exact radiation m _ _ (bind (effRad m) fun _ => pure _) _ _ _
  | conduction b p => exact of_own (fun _ => rfl) fun _ _ => rfl
  | convection =>
    exact bind (crust m) fun _ => bind (cover m) fun _ => bind (molten m) fun _ => bind (lift _) fun _ =>
      bind (logNum (by decide) _) fun _ => bind (logNum (by decide) _) fun _ => bind (logNum (by decide) _) fun _ => pure _
  | rain a b c => exact pure _
  | viscous => exact get (fun _ _ => rfl) fun _ => bind (lift _) fun _ => bind (velocity _) fun _ => bind (lift _) fun _ => pure _
  | snyder =>
    exact bind (crust m) fun _ => bind (cover m) fun _ => bind (molten m) fun _ => bind (logNum (by decide) _) fun _ =>
      bind (lift _) fun _ => bind (logNum (by decide) _) fun _ => bind (logNum (by decide) _) fun _ => bind (logNum (by decide) _) fun _ =>
      bind (logNum (by decide) _) fun _ => pure _

theorem heatBudgetLoop (m : Models α) (width depth : α) (fs : List (Flux α)) (acc : α) :
    Traced (PyFlowGo.heatBudgetLoop m width depth fs acc) := by
  induction fs generalizing acc with
  | nil => exact pure _
  | cons f rest ih =>
    refine bind (flux m _ _ f) fun _ => bind (flux m _ _ f) fun _ => bind (logNum ?_ _) fun _ => ih _
    cases f <;> simp [Flux.logName]

theorem heatBudget (m : Models α) (width depth : α) : Traced (PyFlowGo.heatBudget m width depth) := by
  unfold PyFlowGo.heatBudget
  exact bind (heatBudgetLoop m _ _ _ _) fun _ => bind (logNum (by decide) _) fun _ => pure _

theorem finished : Traced (setFinished : PyM (World α) Unit) := modify (fun _ => rfl) fun _ _ => rfl

theorem stepCompute (g : Integrator α) (v : α) : Traced (PyFlowGo.stepCompute g v) := by
  unfold PyFlowGo.stepCompute
  refine bind (modify (fun w => by split <;> rfl) fun w L => by dsimp only; split <;> rfl) fun _ => ?_
  refine get (fun _ _ => rfl) fun w => ?_
  refine bind (lift _) fun width => ?_
  refine bind (lift _) fun slope => ?_
  refine bind (heatBudget _ _ _) fun heat => ?_
  refine get (fun _ _ => rfl) fun w => ?_
  refine bind (lift _) fun _ => ?_
  exact bind (lift _) fun _ => pure _

theorem stepLog (g : Integrator α) (d : StepData α) : Traced (PyFlowGo.stepLog g d) := by
  unfold PyFlowGo.stepLog
  refine get (fun _ _ => rfl) fun w => ?_
  iterate 5 refine bind (logNum (by decide) _) fun _ => ?_
  refine bind (lift _) fun _ => ?_
  iterate 3 refine bind (logNum (by decide) _) fun _ => ?_
  refine bind (crust _) fun _ => ?_
  refine bind (logNum (by decide) _) fun _ => ?_
  refine bind (cover _) fun _ => ?_
  iterate 6 refine bind (logNum (by decide) _) fun _ => ?_
  refine get (fun _ _ => rfl) fun w => ?_
  refine bind (logCell (by decide) _) fun _ => ?_
  refine bind (logNum (by decide) _) fun _ => ?_
  refine bind (lift _) fun _ => ?_
  refine bind (logNum (by decide) _) fun _ => ?_
  refine bind (lift _) fun _ => ?_
  exact logNum (by decide) _

end Traced

/-- The same without the position, which `stepUpdate` changes. -/
def Traces {β : Type} (m : PyM (World α) β) (w : World α) (ops : List (LogOp (Cell α))) : Prop :=
  ∀ L, m { w with log := L } = ((m w).1, { (m w).2 with log := replay L ops })

theorem Traces.bind {β γ : Type} {m : PyM (World α) β} {f : β → PyM (World α) γ} {w : World α} {ops : List (LogOp (Cell α))}
    (hm : Traces m w ops) (hf : ∀ b w1, m w = (.ok b, w1) → Traces (f b) w1 []) : Traces (m >>= f) w ops := by
  intro L
  cases h : m w with
  | mk r w1 =>
    have h3 := hm L
    rw [h] at h3
    cases r with
    | error e => rw [PyM.bind_apply, h3, PyM.bind_apply, h]
    | ok b =>
      rw [PyM.bind_apply, h3, PyM.bind_apply, h]
      exact hf b w1 h _

theorem traces_modify {f : World α → World α} (hl : ∀ w L, f { w with log := L } = { f w with log := L }) (w : World α) :
    Traces (PyM.modify f) w [] := by
  intro L
  show (Except.ok (), f { w with log := L }) = (Except.ok (), { f w with log := L })
  rw [hl w L]

theorem traces_lift {β : Type} (x : Except Err β) (w : World α) : Traces (PyM.lift x : PyM (World α) β) w [] := fun _ => rfl

theorem traces_update (g : Integrator α) (d : StepData α) (w : World α) : Traces (stepUpdate g d) w [] := by
  unfold stepUpdate
  refine Traces.bind (traces_modify (fun _ _ => rfl) _) fun _ _ _ => ?_
  refine Traces.bind (traces_lift _ _) fun _ _ _ => ?_
  refine Traces.bind (traces_modify (fun _ _ => rfl) _) fun _ _ _ => ?_
  refine Traces.bind (traces_lift _ _) fun _ _ _ => ?_
  exact traces_modify (fun _ _ => rfl) _

theorem traced_stop (g : Integrator α) (d : StepData α) : Traced (stepStop g d) := by
  unfold stepStop
  refine Traced.get (fun _ _ => rfl) fun w => ?_
  split
  · exact Traced.finished
  · refine Traced.bind (Traced.lift _) fun nc => ?_
    split
    · exact Traced.finished
    · refine Traced.bind (Traced.lift _) fun yc => ?_
      split
      · exact Traced.finished
      · split
        · exact Traced.finished
        · exact Traced.pure _

theorem traces_stop (g : Integrator α) (d : StepData α) (w : World α) : Traces (stepStop g d) w [] := by
  intro L
  unfold stepStop
  rw [PyM.bind_apply, PyM.bind_apply]
  simp only [PyM.get_apply]
  split
  · rfl
  · simp only [PyM.bind_apply, PyM.lift_apply]
    cases g.models.lava.notCompatible w.st with
    | error e => rfl
    | ok nc =>
      dsimp only
      split
      · rfl
      · simp only [PyM.bind_apply, PyM.lift_apply]
        cases g.models.lava.yieldNotCompatible w.terrain w.st with
        | error e => rfl
        | ok yc =>
          dsimp only
          split
          · rfl
          · split <;> rfl

/-- A call of `single_step` makes the same calls of the logger, all at the position of the state before the step, whatever the log
    is; and everything else it does is independent of the log. -/
theorem step_traced (g : Integrator α) (w : World α) : ∃ ops : List (LogOp (Cell α)),
    (∀ o ∈ ops, o.name ≠ "position" ∧ o.position = .num w.st.pos) ∧ Traces (singleStep g) w ops := by
  have key : ∀ d : StepData α, ∀ w1 : World α, ∃ ops : List (LogOp (Cell α)),
      (∀ o ∈ ops, o.name ≠ "position" ∧ o.position = .num w1.st.pos) ∧
      Traces (do stepLog g d; stepUpdate g d; stepStop g d) w1 ops := by
    intro d w1
    obtain ⟨ops, h1, _, h3⟩ := Traced.stepLog g d w1
    exact ⟨ops, h1, Traces.bind h3 fun _ _ _ => Traces.bind (traces_update g d _) fun _ _ _ => traces_stop g d _⟩
  obtain ⟨o1, h1, h2, h3⟩ := (Traced.bind (Traced.velocity g.models.lava) fun v =>
    (show Traced (if leB v 0.0 then (Pure.pure (none : Option (StepData α)) : PyM (World α) _)
      else do let d ← stepCompute g v; Pure.pure (some d)) by
      split
      · exact Traced.pure _
      · exact Traced.bind (Traced.stepCompute g v) fun d => Traced.pure _)) w
  have e : singleStep g = ((do
      let v ← meanVelocityM g.models.lava
      if leB v 0.0 then (Pure.pure (none : Option (StepData α)) : PyM (World α) _)
        else do let d ← stepCompute g v; Pure.pure (some d)) >>= fun
        | none => setFinished
        | some d => do
          let w ← PyM.get
          if leB d.newPhi w.st.crystal then setFinished
          else do
            stepLog g d
            stepUpdate g d
            stepStop g d) := by
    funext w
    unfold singleStep
    simp only [PyM.bind_apply]
    cases meanVelocityM g.models.lava w with
    | mk r w1 =>
      cases r with
      | error e => rfl
      | ok v =>
        dsimp only
        split
        · rfl
        · simp only [PyM.bind_apply]
          cases stepCompute g v w1 with
          | mk r w2 =>
            cases r with
            | error e => rfl
            | ok d => rfl
  rw [e]
  generalize hm : (do
      let v ← meanVelocityM g.models.lava
      if leB v 0.0 then (Pure.pure (none : Option (StepData α)) : PyM (World α) _)
        else do let d ← stepCompute g v; Pure.pure (some d)) = m at *
  cases h : m w with
  | mk r w1 =>
    rw [h] at h2 h3
    cases r with
    | error e =>
      refine ⟨o1, h1, fun L => ?_⟩
      rw [PyM.bind_apply, h3 L, PyM.bind_apply, h]
    | ok b =>
      cases b with
      | none =>
        refine ⟨o1, h1, fun L => ?_⟩
        rw [PyM.bind_apply, h3 L, PyM.bind_apply, h]
        rfl
      | some d =>
        by_cases hc : leB d.newPhi w1.st.crystal = true
        · refine ⟨o1, h1, fun L => ?_⟩
          rw [PyM.bind_apply, h3 L, PyM.bind_apply, h]
          simp only [PyM.bind_apply, PyM.get_apply]
          rw [if_pos hc]
          rfl
        · obtain ⟨o2, h4, h5⟩ := key d w1
          refine ⟨o1 ++ o2, ?_, fun L => ?_⟩
          · intro o ho
            rcases List.mem_append.mp ho with ho | ho
            · exact h1 o ho
            · have := h4 o ho
              dsimp only at h2
              rw [h2] at this
              exact this
          · rw [PyM.bind_apply, h3 L, PyM.bind_apply, h, replay_append]
            have := h5 (replay L o1)
            simp only [PyM.bind_apply, PyM.get_apply] at this ⊢
            rw [if_neg hc]
            exact this

/-- The depth search does not look at the log and does not touch it. -/
theorem search_traced (grid : List α) (l : Lava α) (w : World α) : Traces (initEffusionRateOn grid l) w [] := by
  have hd : ∀ grid : List α, Traced (depthSearch l grid) ∧ ∀ w, Traces (depthSearch l grid) w [] := by
    intro grid
    suffices h : ∀ w, Traces (depthSearch l grid) w [] ∧ (depthSearch l grid w).2.st.pos = w.st.pos from
      ⟨fun w => ⟨[], by simp, (h w).2, (h w).1⟩, fun w => (h w).1⟩
    induction grid with
    | nil => exact fun w => ⟨fun L => rfl, rfl⟩
    | cons d rest ih =>
      have ht : ∀ w, Traces (depthSearch l (d :: rest)) w [] := by
        intro w
        unfold depthSearch
        refine Traces.bind (traces_modify (fun _ _ => rfl) _) fun _ _ _ => ?_
        refine Traces.bind ?_ fun v _ _ => ?_
        · intro L
          unfold meanVelocityM
          dsimp only
          split <;> rfl
        refine Traces.bind (traces_modify (fun _ _ => rfl) _) fun _ _ _ => ?_
        refine Traces.bind (traces_modify (fun _ _ => rfl) _) fun _ w3 _ => ?_
        intro L
        simp only [PyM.bind_apply, PyM.get_apply]
        split
        · rfl
        · exact (ih _).1 L
      intro w
      refine ⟨ht w, ?_⟩
      unfold depthSearch
      simp only [PyM.bind_apply, PyM.modify_apply]
      unfold meanVelocityM
      dsimp only
      split
      · rename_i hq
        split at hq
        · rename_i h1
          simp only [Prod.mk.injEq] at hq
          rw [← hq.2]
          simp only [PyM.get_apply]
          split
          · rfl
          · exact (ih _).2
        · cases hq
      · rename_i hq
        split at hq
        · cases hq
        · simp only [Prod.mk.injEq] at hq
          rw [← hq.2]
  intro L
  unfold initEffusionRateOn
  simp only [PyM.bind_apply, PyM.get_apply]
  split
  · rfl
  · exact (hd grid).2 w L

end PyFlowGo
