import Verif.Proofs.Mirror
import Verif.Proofs.StrainKept
/-
  A run looks at the slope of the terrain only at the positions it comes to.
-/
set_option linter.unusedSectionVars false
namespace PyFlowGo
variable {α : Type} [Add α] [Sub α] [Mul α] [Neg α] [OfScientific α] [PyNum α]

/-- The terrain with another slope profile. -/
def Terrain.swapped {α : Type} (sp : Option (Spline α)) (t : Terrain α) : Terrain α := { t with spline := sp }

/-- The world with another slope profile. -/
def World.swapped {α : Type} (sp : Option (Spline α)) (w : World α) : World α := { w with terrain := w.terrain.swapped sp }

/-- The two profiles have the same slope at `x`. -/
def Agree (sp : Option (Spline α)) (t : Terrain α) (x : α) : Prop := (t.swapped sp).slope x = t.slope x

open Classical in
/-- The world with the other profile, if it has the same slope where the lava is. -/
noncomputable def World.trade (sp : Option (Spline α)) (w : World α) : World α :=
  if Agree sp w.terrain w.st.pos then w.swapped sp else w

theorem trade_agree {sp : Option (Spline α)} {w : World α} (h : Agree sp w.terrain w.st.pos) : w.trade sp = w.swapped sp := if_pos h

theorem basal_swapped (l : Lava α) (t : Terrain α) (s : FlowState α) (sp : Option (Spline α)) (h : Agree sp t s.pos) :
    l.basalStress (t.swapped sp) s = l.basalStress t s := by
  unfold Lava.basalStress
  rw [h]
  rfl

theorem velocity_swapped (l : Lava α) (t : Terrain α) (s : FlowState α) (sp : Option (Spline α)) (h : Agree sp t s.pos) :
    l.meanVelocity (t.swapped sp) s = l.meanVelocity t s := by
  unfold Lava.meanVelocity
  rw [basal_swapped l t s sp h]
  rfl

theorem velM_trade (l : Lava α) (sp : Option (Spline α)) : Commutes (World.trade sp) (meanVelocityM l) (meanVelocityM l) := by
  intro w
  by_cases h : Agree sp w.terrain w.st.pos
  · rw [trade_agree h]
    unfold meanVelocityM
    rw [show (w.swapped sp).terrain = w.terrain.swapped sp from rfl, show (w.swapped sp).st = w.st from rfl, velocity_swapped l _ _ sp h]
    cases l.meanVelocity w.terrain w.st with
    | error e =>
      show _ = (_, _)
      rw [trade_agree h]
    | ok p =>
      show _ = (_, World.trade sp _)
      rw [trade_agree (by exact h)]
      rfl
  · have e : ∀ x, World.trade sp { w with st := { w.st with strain := x } } = { w with st := { w.st with strain := x } } := fun x => if_neg (by exact h)
    rw [show w.trade sp = w from if_neg h]
    unfold meanVelocityM
    cases l.meanVelocity w.terrain w.st with
    | error _ =>
      show _ = (_, World.trade sp w)
      rw [show w.trade sp = w from if_neg h]
    | ok p =>
      show _ = (_, World.trade sp _)
      rw [e]

/-- A change that the test does not see. -/
theorem trade_set (sp : Option (Spline α)) (w w' : World α) (f : World α → World α) (hf : f w = w')
    (h1 : ∀ v : World α, v.st.pos = w.st.pos → v.terrain = w.terrain → (f v).st.pos = v.st.pos ∧ (f v).terrain = v.terrain)
    (h2 : f (w.swapped sp) = (f w).swapped sp) : f (w.trade sp) = w'.trade sp := by
  subst hf
  obtain ⟨hp, ht⟩ := h1 w rfl rfl
  by_cases h : Agree sp w.terrain w.st.pos
  · rw [trade_agree h, trade_agree (by rw [hp, ht]; exact h), h2]
  · rw [show w.trade sp = w from if_neg h, show (f w).trade sp = f w from if_neg (by rw [hp, ht]; exact h)]

theorem standing_trade (g : Integrator α) (sp : Option (Spline α)) : Standing g g (World.trade sp) where
  dx := rfl
  mass := rfl
  air := rfl
  fluxes := rfl
  latent := rfl
  solid := rfl
  vel := velM_trade _ sp
  crust w := by unfold World.trade; split <;> rfl
  cover w v := by unfold World.trade; split <;> rfl
  molten w := by unfold World.trade; split <;> rfl
  vesicle w := by unfold World.trade; split <;> rfl
  density w := by unfold World.trade; split <;> rfl
  bulk w := by unfold World.trade; split <;> rfl
  yield_ w := by unfold World.trade; split <;> rfl
  basal w := by
    by_cases h : Agree sp w.terrain w.st.pos
    · rw [trade_agree h]
      exact basal_swapped _ _ _ _ h
    · rw [show w.trade sp = w from if_neg h]
  compat w := by unfold World.trade; split <;> rfl
  rate w := by unfold World.trade; split <;> rfl
  slope w := by
    by_cases h : Agree sp w.terrain w.st.pos
    · rw [trade_agree h]
      exact h
    · rw [show w.trade sp = w from if_neg h]
  depth w := by unfold World.trade; split <;> rfl
  width w := by unfold World.trade; split <;> rfl
  rates w := by unfold World.trade; split <;> rfl
  flux _ w := by unfold World.trade; split <;> rfl
  iter w := by unfold World.trade; split <;> rfl
  temp w := by unfold World.trade; split <;> rfl
  crystal w := by unfold World.trade; split <;> rfl
  strain w := by unfold World.trade; split <;> rfl
  fin w := by unfold World.trade; split <;> rfl
  length w := by unfold World.trade; split <;> rfl
  logs n v _ := by
    intro w
    show (_, _) = (_, _)
    congr 1
    exact trade_set sp w _ (fun w => { w with log := w.log.addVariable n (.num w.st.pos) v }) rfl (fun _ _ _ => ⟨rfl, rfl⟩) rfl
  setRate w x := trade_set sp w _ (fun w => { w with effusionRate := x }) rfl (fun _ _ _ => ⟨rfl, rfl⟩) rfl
  setTime w t := trade_set sp w _ (fun w => { w with st := { w.st with time := w.st.time + t } }) rfl (fun _ _ _ => ⟨rfl, rfl⟩) rfl
  setStrain w x := trade_set sp w _ (fun w => { w with st := { w.st with strain := x }, iteration := w.iteration + 1 }) rfl (fun _ _ _ => ⟨rfl, rfl⟩) rfl
  finish w := trade_set sp w _ (fun w => { w with finished := true }) rfl (fun _ _ _ => ⟨rfl, rfl⟩) rfl

/-- Same place, same terrain. -/
def Stays (x : α) (t : Terrain α) (w : World α) : Prop := w.st.pos = x ∧ w.terrain = t

theorem stays_of_emits {β : Type} {m : PyM (World α) β} {N : List String} (h : Emits m N) (x : α) (t : Terrain α) : Preserves (Stays x t) m := by
  intro w r w' hw e
  obtain ⟨y, es, rfl, _⟩ := h w r w' e
  exact hw

theorem stays_modify (x : α) (t : Terrain α) (f : World α → World α) (h : ∀ w, (f w).st.pos = w.st.pos ∧ (f w).terrain = w.terrain) :
    Preserves (Stays x t) (PyM.modify f) := by
  intro w r w' hw e
  rw [PyM.modify_apply] at e
  cases e
  exact ⟨(h w).1.trans hw.1, (h w).2.trans hw.2⟩

theorem stays_compute (g : Integrator α) (v x : α) (t : Terrain α) : Preserves (Stays x t) (stepCompute g v) := by
  unfold stepCompute setEffusionRate
  refine Preserves.bind (stays_modify x t _ fun w => ?_) fun _ => Preserves.bind Preserves.get fun w => Preserves.bind (Preserves.lift _) fun _ =>
    Preserves.bind (Preserves.lift _) fun _ => Preserves.bind (stays_of_emits (Emits.heatBudget _ _ _) x t) fun _ =>
    Preserves.bind Preserves.get fun _ => Preserves.bind (Preserves.lift _) fun _ => Preserves.bind (Preserves.lift _) fun _ => Preserves.pure _
  split <;> exact ⟨rfl, rfl⟩

theorem stays_stop (g : Integrator α) (d : StepData α) (x : α) (t : Terrain α) : Preserves (Stays x t) (stepStop g d) := by
  have fin : Preserves (Stays x t) (setFinished : PyM (World α) Unit) := stays_modify x t _ fun _ => ⟨rfl, rfl⟩
  unfold stepStop
  refine Preserves.bind Preserves.get fun w => ?_
  split
  · exact fin
  refine Preserves.bind (Preserves.lift _) fun nc => ?_
  split
  · exact fin
  refine Preserves.bind (Preserves.lift _) fun yc => ?_
  split
  · exact fin
  split
  · exact fin
  · exact Preserves.pure _

/-- Moving on does not look at the terrain. -/
theorem update_swapped (g : Integrator α) (d : StepData α) (sp : Option (Spline α)) :
    Commutes (World.swapped sp) (stepUpdate g d) (stepUpdate g d) := by
  unfold stepUpdate
  exact Commutes.bind (Commutes.modify fun _ => rfl) fun _ => Commutes.bind (Commutes.lift rfl) fun _ =>
    Commutes.bind (Commutes.modify fun _ => rfl) fun _ => Commutes.bind (Commutes.lift rfl) fun _ => Commutes.modify fun _ => rfl

/-- One step in the two terrains, if their slopes agree where it starts and where it ends. -/
theorem step_swapped (g : Integrator α) (sp : Option (Spline α)) (w : World α) (h0 : Agree sp w.terrain w.st.pos)
    (h1 : Agree sp w.terrain (singleStep g w).2.st.pos) :
    singleStep g (w.swapped sp) = ((singleStep g w).1, (singleStep g w).2.swapped sp) ∧ (singleStep g w).2.terrain = w.terrain := by
  have S := standing_trade g sp
  have st : Stays w.st.pos w.terrain w := ⟨rfl, rfl⟩
  have ret : ∀ v : World α, Stays w.st.pos w.terrain v → v.trade sp = v.swapped sp := fun v hv =>
    trade_agree (by rw [hv.1, hv.2]; exact h0)
  have fin : ∀ v : World α, Stays w.st.pos w.terrain v → Stays w.st.pos w.terrain { v with finished := true } := fun v hv => hv
  revert h1
  unfold singleStep
  rw [← ret w st]
  rw [PyM.bind_apply, PyM.bind_apply, S.vel w]
  cases e1 : meanVelocityM g.models.lava w with
  | mk r1 w1 =>
  have k1 := stays_of_emits (Emits.meanVelocityM g.models.lava) w.st.pos w.terrain w r1 w1 st e1
  cases r1 with
  | error e => exact fun _ => ⟨by dsimp only; rw [ret w1 k1], k1.2⟩
  | ok v =>
  dsimp only
  by_cases c1 : leB v 0.0 = true
  · rw [if_pos c1]
    intro _
    rw [S.setFin w1]
    exact ⟨congrArg (Prod.mk _) (ret _ (fin w1 k1)), k1.2⟩
  rw [if_neg c1, PyM.bind_apply, PyM.bind_apply, S.compute v w1]
  cases e2 : stepCompute g v w1 with
  | mk r2 w2 =>
  have k2 := stays_compute g v w.st.pos w.terrain w1 r2 w2 k1 e2
  cases r2 with
  | error e => exact fun _ => ⟨by dsimp only; rw [ret w2 k2], k2.2⟩
  | ok d =>
  dsimp only
  rw [PyM.bind_of_ok (PyM.get_apply _), PyM.bind_of_ok (PyM.get_apply _), S.crystal]
  by_cases c2 : leB d.newPhi w2.st.crystal = true
  · rw [if_pos c2]
    intro _
    rw [S.setFin w2]
    exact ⟨congrArg (Prod.mk _) (ret _ (fin w2 k2)), k2.2⟩
  rw [if_neg c2, PyM.bind_apply, PyM.bind_apply, S.log d w2]
  cases e3 : stepLog g d w2 with
  | mk r3 w3 =>
  have k3 := stays_of_emits (Emits.stepLog g d) w.st.pos w.terrain w2 r3 w3 k2 e3
  cases r3 with
  | error e => exact fun _ => ⟨by dsimp only; rw [ret w3 k3], k3.2⟩
  | ok _ =>
  dsimp only
  rw [ret w3 k3, PyM.bind_apply, PyM.bind_apply, update_swapped g d sp w3]
  have k4 : (stepUpdate g d w3).2.terrain = w.terrain := by
    rw [← k3.2]
    unfold stepUpdate
    rw [PyM.bind_of_ok (PyM.modify_apply _ _), PyM.bind_apply, PyM.lift_apply]
    cases PyNum.div g.dx d.v with
    | error e => rfl
    | ok dt =>
      dsimp only
      rw [PyM.bind_of_ok (PyM.modify_apply _ _), PyM.bind_apply, PyM.lift_apply]
      cases PyNum.div (3.0 * d.v) d.depth <;> rfl
  cases e4 : stepUpdate g d w3 with
  | mk r4 w4 =>
  rw [e4] at k4
  dsimp only at k4
  cases r4 with
  | error e => exact fun _ => ⟨rfl, k4⟩
  | ok _ =>
  dsimp only
  intro h1
  have k5 : Stays w4.st.pos w.terrain (stepStop g d w4).2 :=
    stays_stop g d w4.st.pos w.terrain w4 (stepStop g d w4).1 (stepStop g d w4).2 ⟨rfl, k4⟩ rfl
  have h4 : Agree sp w4.terrain w4.st.pos := by
    rw [k4, ← k5.1]
    exact h1
  rw [← trade_agree h4, S.stop d w4]
  refine ⟨?_, k5.2⟩
  congr 1
  exact trade_agree (by rw [k5.2]; exact h1)

/-- A position the run comes to from `w`: where the lava is, and where it is after each step. -/
inductive Seen (g : Integrator α) : World α → α → Prop
  | here (w) : Seen g w w.st.pos
  | next (w) : w.finished = false → Seen g w (singleStep g w).2.st.pos
  | later (w w1 x) : w.finished = false → singleStep g w = (.ok (), w1) → Seen g w1 x → Seen g w x

/-- The loop in the two terrains. -/
theorem loop_swapped (g : Integrator α) (sp : Option (Spline α)) (n : Nat) (w : World α) (h : ∀ x, Seen g w x → Agree sp w.terrain x) :
    runLoop g n (w.swapped sp) = (runLoop g n w).map fun o => (o.1, o.2.swapped sp) := by
  induction n generalizing w with
  | zero =>
    unfold runLoop
    rw [show (w.swapped sp).finished = w.finished from rfl]
    cases w.finished <;> rfl
  | succ n ih =>
    unfold runLoop
    rw [show (w.swapped sp).finished = w.finished from rfl]
    cases hf : w.finished with
    | true => rfl
    | false =>
      obtain ⟨e1, e2⟩ := step_swapped g sp w (h _ (.here w)) (h _ (.next w hf))
      rw [e1]
      cases e : singleStep g w with
      | mk r v =>
        rw [e] at e2
        cases r with
        | error e => rfl
        | ok _ =>
          refine ih v fun x hx => ?_
          rw [show v.terrain = w.terrain from e2]
          exact h x (.later w v x hf e hx)

/-- The search for the depth in the two terrains. -/
theorem search_swapped (l : Lava α) (sp : Option (Spline α)) (grid : List α) (w : World α) (h : Agree sp w.terrain w.st.pos) :
    depthSearch l grid (w.swapped sp) = ((depthSearch l grid w).1, (depthSearch l grid w).2.swapped sp) := by
  induction grid generalizing w with
  | nil => rfl
  | cons d rest ih =>
    unfold depthSearch
    rw [PyM.bind_of_ok (PyM.modify_apply _ _), PyM.bind_of_ok (PyM.modify_apply _ _)]
    generalize hw : ({ w with terrain := { w.terrain with depth := d } } : World α) = u
    have hu : Agree sp u.terrain u.st.pos := by subst hw; exact h
    rw [show ({ w.swapped sp with terrain := { (w.swapped sp).terrain with depth := d } } : World α) = u.swapped sp by subst hw; rfl]
    have S := velM_trade l sp u
    rw [trade_agree hu] at S
    rw [PyM.bind_apply, PyM.bind_apply, S]
    cases e1 : meanVelocityM l u with
    | mk r1 u1 =>
    have k1 := stays_of_emits (Emits.meanVelocityM l) u.st.pos u.terrain u r1 u1 ⟨rfl, rfl⟩ e1
    have h1 : Agree sp u1.terrain u1.st.pos := by rw [k1.1, k1.2]; exact hu
    cases r1 with
    | error e => dsimp only; rw [trade_agree h1]
    | ok v =>
      dsimp only
      rw [trade_agree h1]
      iterate 4 rw [PyM.bind_of_ok (PyM.modify_apply _ _)]
      rw [PyM.bind_of_ok (PyM.get_apply _), PyM.bind_of_ok (PyM.get_apply _)]
      dsimp only
      by_cases c : leB u1.terrain.effusionRateInit (v * u1.terrain.width * d) = true
      · rw [if_pos c, if_pos (by exact c)]
        rfl
      · rw [if_neg c, if_neg (by exact c)]
        exact ih { u1 with effusionRate := v * u1.terrain.width * d, fluxRate := some (v * u1.terrain.width * d * l.density u1.st) } h1

end PyFlowGo
