import Verif.Proofs.StepReal
/-
  Sufficient conditions for a step to be accepted (used for progress statements and for examples).
-/
namespace PyFlowGo
open Spec
variable {α : Type} [Add α] [Sub α] [Mul α] [Neg α] [OfScientific α] [PyNum α]

theorem meanVelocityM_forward {l : Lava α} {w : World α} {v x : α}
    (h : l.meanVelocity w.terrain w.st = .ok (v, x)) :
    meanVelocityM l w = (.ok v, { w with st := { w.st with strain := x } }) := by
  unfold meanVelocityM; rw [h]

theorem effectiveCover_forward {m : Models α} {w : World α} {v x : α}
    (h : m.lava.meanVelocity w.terrain w.st = .ok (v, x)) :
    effectiveCover m w = (.ok (m.cover.value w.st.pos v), { w with st := { w.st with strain := x } }) := by
  unfold effectiveCover
  rw [PyM.bind_of_ok (PyM.get_apply w), PyM.bind_of_ok (meanVelocityM_forward h), PyM.pure_apply]

theorem lift_bind {β γ σ : Type} {x : Except Err β} {b : β} (h : x = .ok b) (f : β → PyM σ γ) (s : σ) :
    (PyM.lift x >>= f) s = f b s := by
  rw [PyM.bind_of_ok (b := b) (s1 := s)]
  rw [PyM.lift_apply, h]

theorem stepLog_forward (g : Integrator α) (d : StepData α) (w : World α) (visc tc v' y tho0 thob : α)
    (hvisc : g.models.lava.bulkViscosity w.st = .ok visc)
    (htc : g.models.crust.temperature w.st = .ok tc)
    (hv : g.models.lava.meanVelocity w.terrain w.st = .ok (v', y))
    (h0 : g.models.lava.yieldStrength w.st = .ok tho0)
    (hb : g.models.lava.basalStress w.terrain w.st = .ok thob) :
    stepLog g d w = (.ok (), w.touched y (stepEntries g d w.st w.effusionRate visc tc
      (g.models.cover.value w.st.pos v') tho0 thob)) := by
  unfold stepLog
  rw [PyM.bind_of_ok (PyM.get_apply w)]
  generalize hs : w.st = s at *
  rw [← World.touched_nil w, hs]
  have e5 : ∀ es : List (String × Cell α), (w.touched s.strain es).st = s := fun _ => by
    rw [← hs]; rfl
  have e6 : ∀ es : List (String × Cell α), (w.touched s.strain es).terrain = w.terrain := fun _ => rfl
  rw [log_step, log_step, log_step, log_step, log_step, lift_bind hvisc, log_step, log_step, log_step]
  rw [PyM.bind_of_ok (m := crustTemperature g.models) (b := tc)
    (by rw [crustTemperature, e5, htc])]
  rw [log_step, PyM.bind_of_ok (effectiveCover_forward (v := v') (x := y) (by rw [e5, e6]; exact hv))]
  have e : ∀ es : List (String × Cell α), ({ w.touched s.strain es with
      st := { (w.touched s.strain es).st with strain := y } } : World α) = w.touched y es := fun es => rfl
  rw [e, e5, log_step, log_step, log_step, log_step, log_step, log_step, PyM.bind_of_ok (PyM.get_apply _)]
  have e3 : ∀ es : List (String × Cell α), (w.touched y es).st = { s with strain := y } := fun _ => by
    rw [← hs]; rfl
  have e4 : ∀ es : List (String × Cell α), (w.touched y es).terrain = w.terrain := fun _ => rfl
  have e2 : ∀ es : List (String × Cell α), (w.touched y es).effusionRate = w.effusionRate := fun _ => rfl
  rw [e2, e3, e4, logCell_step, log_step,
    lift_bind (b := tho0) (by rw [← h0]; simp only [Lava.yieldStrength, yield_strain]), log_step,
    lift_bind (b := thob) (by rw [← hb, basal_strain]),
    ← PyM.bind_pure (logNum "tho_b" thob), log_step, PyM.pure_apply]
  have e7 : (w.touched s.strain []).effusionRate = w.effusionRate := rfl
  rw [World.touched_touched, e7]
  simp only [List.nil_append, List.cons_append, stepEntries]

theorem stepStop_forward (g : Integrator α) (d : StepData α) (w : World α) (hd : w.st.temp = d.newTemp)
    (b : Bool) (h : stopTest g w.terrain w.st = .ok b) :
    stepStop g d w = (.ok (), { w with finished := w.finished || b }) := by
  unfold stepStop
  rw [PyM.bind_of_ok (PyM.get_apply w)]
  unfold stopTest at h
  rw [hd] at h
  split at h
  · rename_i hc
    injection h with h
    rw [if_pos hc, ← h]
    simp [setFinished]
  · rename_i hc
    rw [if_neg hc]
    obtain ⟨nc, hnc, h⟩ := bind_ok_iff.mp h
    rw [lift_bind hnc]
    split at h
    · rename_i h2
      rw [pure_ok_iff] at h
      rw [if_pos h2, ← h]; simp [setFinished]
    · rename_i h2
      rw [if_neg h2]
      obtain ⟨yc, hyc, h⟩ := bind_ok_iff.mp h
      rw [lift_bind hyc]
      split at h
      · rename_i h3
        rw [pure_ok_iff] at h
        rw [if_pos h3, ← h]; simp [setFinished]
      · rename_i h3
        rw [if_neg h3]
        rw [pure_ok_iff] at h
        split
        · rename_i h4; rw [← h, h4]; simp [setFinished]
        · rename_i h4
          have : b = false := by rw [← h]; simpa using h4
          rw [this]; simp

/-- The arithmetic of a step when everything it calls succeeds. -/
theorem stepCompute_forward (g : Integrator α) (w : World α) (v x width slope heat rate dtempDx : α)
    (w1 : World α)
    (hwidth : channelWidth g.massConservation (w.stepEffusion v) w.fluxRate v w.terrain.depth
      (g.models.lava.density w.st) = .ok width)
    (hslope : w.terrain.slope w.st.pos = .ok slope)
    (hheat : heatBudget g.models width w.terrain.depth
      { w with st := { w.st with strain := x }, effusionRate := w.stepEffusion v } = (.ok heat, w1))
    (hrate : g.models.cryst.rate w.st = .ok rate)
    (hdtemp : PyNum.div (-heat) (w.stepEffusion v * g.models.lava.density w.st *
      g.models.lava.latentHeat * rate) = .ok dtempDx) :
    stepCompute g v { w with st := { w.st with strain := x } } =
      (.ok { v := v, depth := w.terrain.depth, width := width, slope := slope, heat := heat, rate := rate,
             dtempDx := dtempDx, dtempDt := (-dtempDx) * v * 60.0, dphiDx := dtempDx * (-rate),
             newPhi := w.st.crystal + dtempDx * (-rate) * g.dx,
             newTemp := w.st.temp + dtempDx * g.dx }, w1) := by
  have hs : (if w.iteration == 0 then
      ({ w with st := { w.st with strain := x },
                effusionRate := v * w.terrain.width * w.terrain.depth } : World α)
      else { w with st := { w.st with strain := x } }) =
      { w with st := { w.st with strain := x }, effusionRate := w.stepEffusion v } := by
    unfold World.stepEffusion; split <;> rfl
  obtain ⟨y, es0, ht, _, _⟩ := heatBudget_ok hheat
  have ht' : w1 = ({ w with effusionRate := w.stepEffusion v } : World α).touched y
    (es0 ++ [("heat_budget", .num heat)]) := ht
  have f1 : w1.effusionRate = w.stepEffusion v := by rw [ht']; rfl
  have f2 : w1.st = { w.st with strain := y } := by rw [ht']; rfl
  unfold stepCompute setEffusionRate
  rw [PyM.bind_of_ok (PyM.modify_apply _ _)]
  simp only [hs]
  rw [PyM.bind_of_ok (PyM.get_apply _)]
  simp only [density_strain]
  rw [lift_bind hwidth, lift_bind hslope, PyM.bind_of_ok hheat, PyM.bind_of_ok (PyM.get_apply _)]
  simp only [f1, f2, crystRate_strain]
  rw [lift_bind hrate, lift_bind hdtemp, PyM.pure_apply]

/-- A step is accepted when everything it calls succeeds and the crystal fraction increases. -/
theorem singleStep_forward (g : Integrator α) (w : World α) (v x width slope heat rate dtempDx : α)
    (w1 : World α) (visc tc v2 y2 tho0 thob dt strain : α) (stop : Bool)
    (hv : g.models.lava.meanVelocity w.terrain w.st = .ok (v, x)) (hle : leB v 0.0 = false)
    (hwidth : channelWidth g.massConservation (w.stepEffusion v) w.fluxRate v w.terrain.depth
      (g.models.lava.density w.st) = .ok width)
    (hslope : w.terrain.slope w.st.pos = .ok slope)
    (hheat : heatBudget g.models width w.terrain.depth
      { w with st := { w.st with strain := x }, effusionRate := w.stepEffusion v } = (.ok heat, w1))
    (hrate : g.models.cryst.rate w.st = .ok rate)
    (hdtemp : PyNum.div (-heat) (w.stepEffusion v * g.models.lava.density w.st *
      g.models.lava.latentHeat * rate) = .ok dtempDx)
    (hphi : leB (w.st.crystal + dtempDx * (-rate) * g.dx) w.st.crystal = false)
    (hvisc : g.models.lava.bulkViscosity w1.st = .ok visc)
    (htc : g.models.crust.temperature w1.st = .ok tc)
    (hv2 : g.models.lava.meanVelocity w1.terrain w1.st = .ok (v2, y2))
    (h0 : g.models.lava.yieldStrength w1.st = .ok tho0)
    (hb : g.models.lava.basalStress w1.terrain w1.st = .ok thob)
    (hdt : PyNum.div g.dx v = .ok dt) (hst : PyNum.div (3.0 * v) w.terrain.depth = .ok strain)
    (hstop : stopTest g w.terrain
      { crystal := w.st.crystal + dtempDx * (-rate) * g.dx, temp := w.st.temp + dtempDx * g.dx,
        pos := w.st.pos + g.dx, time := w.st.time + dt, strain := strain } = .ok stop) :
    ∃ w', singleStep g w = (.ok (), w') ∧ w'.iteration = w.iteration + 1 ∧
      w'.finished = (w.finished || stop) ∧ w'.terrain = w.terrain ∧
      w'.st =
        { crystal := w.st.crystal + dtempDx * (-rate) * g.dx, temp := w.st.temp + dtempDx * g.dx,
          pos := w.st.pos + g.dx, time := w.st.time + dt, strain := strain } := by
  obtain ⟨y, es0, ht, _, _⟩ := heatBudget_ok hheat
  have f1 : w1.terrain = w.terrain := by rw [ht]; rfl
  have f2 : w1.st = { w.st with strain := y } := by rw [ht]; rfl
  have f3 : w1.iteration = w.iteration := by rw [ht]; rfl
  have f4 : w1.finished = w.finished := by rw [ht]; rfl
  have hlog := stepLog_forward g
    { v := v, depth := w.terrain.depth, width := width, slope := slope, heat := heat, rate := rate,
      dtempDx := dtempDx, dtempDt := (-dtempDx) * v * 60.0, dphiDx := dtempDx * (-rate),
      newPhi := w.st.crystal + dtempDx * (-rate) * g.dx,
      newTemp := w.st.temp + dtempDx * g.dx } w1 visc tc v2 y2 tho0 thob hvisc htc hv2 h0 hb
  generalize hd : (StepData.mk v w.terrain.depth width slope heat rate dtempDx ((-dtempDx) * v * 60.0)
      (dtempDx * (-rate)) (w.st.crystal + dtempDx * (-rate) * g.dx)
      (w.st.temp + dtempDx * g.dx) : StepData α) = d at hlog
  have d1 : d.newPhi = w.st.crystal + dtempDx * (-rate) * g.dx := by rw [← hd]
  have d2 : d.newTemp = w.st.temp + dtempDx * g.dx := by rw [← hd]
  have d3 : d.v = v := by rw [← hd]
  have d4 : d.depth = w.terrain.depth := by rw [← hd]
  generalize stepEntries g d w1.st w1.effusionRate visc tc
      (g.models.cover.value w1.st.pos v2) tho0 thob = E at hlog
  unfold singleStep
  rw [PyM.bind_of_ok (meanVelocityM_forward hv), hle]
  simp only [Bool.false_eq_true, if_false]
  rw [PyM.bind_of_ok (stepCompute_forward g w v x width slope heat rate dtempDx w1 hwidth hslope hheat hrate
    hdtemp), hd, PyM.bind_of_ok (PyM.get_apply _), d1]
  have hcr : w1.st.crystal = w.st.crystal := by rw [f2]
  rw [hcr, hphi]
  simp only [Bool.false_eq_true, if_false]
  rw [PyM.bind_of_ok hlog]
  have hup : stepUpdate g d (w1.touched y2 E) = (.ok (), { w1.touched y2 E with
      st := { crystal := d.newPhi, temp := d.newTemp, pos := w.st.pos + g.dx, time := w.st.time + dt,
              strain := strain }, iteration := w.iteration + 1 }) := by
    unfold stepUpdate
    rw [PyM.bind_of_ok (PyM.modify_apply _ _), lift_bind (by rw [d3]; exact hdt),
      PyM.bind_of_ok (PyM.modify_apply _ _), lift_bind (by rw [d3, d4]; exact hst), PyM.modify_apply]
    simp only [World.touched, f2, f3]
  rw [PyM.bind_of_ok hup, stepStop_forward g d _ (by rfl) stop]
  · exact ⟨_, rfl, rfl, by simp only [World.touched, f4], by simp only [World.touched, f1],
      by simp only [d1, d2]⟩
  · simp only [World.touched, f1, d1, d2]; exact hstop

end PyFlowGo
