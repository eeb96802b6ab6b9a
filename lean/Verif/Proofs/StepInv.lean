import Verif.Proofs.Frame
import Verif.Proofs.StrainFree
/-
  Inversion of `single_step`: everything a successful call computed.  Valid for every number type.
-/
namespace PyFlowGo
variable {α : Type} [Add α] [Sub α] [Mul α] [Neg α] [OfScientific α] [PyNum α]

theorem meanVelocityM_ok {l : Lava α} {w w' : World α} {v : α} (h : meanVelocityM l w = (.ok v, w')) :
    ∃ x, l.meanVelocity w.terrain w.st = .ok (v, x) ∧ w' = { w with st := { w.st with strain := x } } := by
  unfold meanVelocityM at h
  split at h
  · rename_i v' x hv
    simp only [Prod.mk.injEq, Except.ok.injEq] at h
    obtain ⟨rfl, rfl⟩ := h
    exact ⟨x, hv, rfl⟩
  · simp at h

theorem crystRate_strain (m : CrystModel α) (s : FlowState α) (x : α) :
    m.rate { s with strain := x } = m.rate s := by
  cases m <;> rfl

/-- The effusion rate used by a step with velocity `v`. -/
def World.stepEffusion (w : World α) (v : α) : α :=
  if w.iteration == 0 then v * w.terrain.width * w.terrain.depth else w.effusionRate

theorem heatBudget_ok {m : Models α} {width depth q : α} {w w' : World α}
    (h : heatBudget m width depth w = (.ok q, w')) :
    ∃ y es0, w' = w.touched y (es0 ++ [("heat_budget", .num q)]) ∧
      es0.map Prod.fst = fluxColumns m.fluxes ∧
      heatBudgetLoop m width depth m.fluxes 0.0 w = (.ok q, w.touched y es0) := by
  unfold heatBudget at h
  obtain ⟨tot, w1, h1, h⟩ := PyM.bind_eq_ok.mp h
  obtain ⟨y, es0, rfl, _, hn⟩ := Emits.heatBudgetLoop m width depth _ _ _ _ _ h1
  simp only [logNum, logCell, PyM.bind_eq_ok, PyM.modify_apply, PyM.pure_apply, Prod.mk.injEq] at h
  obtain ⟨_, _, ⟨_, rfl⟩, h2, rfl⟩ := h
  injection h2 with h2
  subst h2
  refine ⟨y, es0, ?_, hn ⟨_, rfl⟩, h1⟩
  simp only [World.touched, Log.addAll_append]; rfl

/-- What the arithmetic of a step has computed, in terms of the world `w` at the start of the step. -/
structure StepFacts (g : Integrator α) (w : World α) (v x : α) (d : StepData α)
    (w1 : World α) (es : List (String × Cell α)) (y : α) : Prop where
  v_eq : d.v = v
  depth_eq : d.depth = w.terrain.depth
  width : channelWidth g.massConservation (w.stepEffusion v) w.fluxRate v w.terrain.depth
    (g.models.lava.density w.st) = .ok d.width
  slope : w.terrain.slope w.st.pos = .ok d.slope
  heat : heatBudget g.models d.width w.terrain.depth
    { w with st := { w.st with strain := x }, effusionRate := w.stepEffusion v } = (.ok d.heat, w1)
  touched : w1 = ({ w with effusionRate := w.stepEffusion v } : World α).touched y es
  names : ∃ es0, es = es0 ++ [("heat_budget", .num d.heat)] ∧ es0.map Prod.fst = fluxColumns g.models.fluxes
  rate : g.models.cryst.rate w.st = .ok d.rate
  dtemp : PyNum.div (-d.heat) (w.stepEffusion v * g.models.lava.density w.st *
    g.models.lava.latentHeat * d.rate) = .ok d.dtempDx
  dtempDt : d.dtempDt = (-d.dtempDx) * v * 60.0
  dphi : d.dphiDx = d.dtempDx * (-d.rate)
  newPhi : d.newPhi = w.st.crystal + d.dphiDx * g.dx
  newTemp : d.newTemp = w.st.temp + d.dtempDx * g.dx

theorem stepCompute_ok {g : Integrator α} {w : World α} {v x : α} {d : StepData α} {w1 : World α}
    (h : stepCompute g v { w with st := { w.st with strain := x } } = (.ok d, w1)) :
    ∃ es y, StepFacts g w v x d w1 es y := by
  unfold stepCompute at h
  simp only [PyM.bind_eq_ok, setEffusionRate, PyM.modify_apply, PyM.get_apply, PyM.lift_eq_ok,
    PyM.pure_apply] at h
  obtain ⟨_, s1, hs1, _, s2, hs2, width, s3, ⟨hw, rfl⟩, slope, s4, ⟨hsl, rfl⟩, heat, s5, hh, _, s6, hs6,
    rate, s7, ⟨hr, rfl⟩, dt, s8, ⟨hdt, rfl⟩, hd⟩ := h
  simp only [Prod.mk.injEq, Except.ok.injEq] at hs1 hs2 hs6 hd
  obtain ⟨_, rfl⟩ := hs1
  obtain ⟨rfl, rfl⟩ := hs2
  obtain ⟨rfl, rfl⟩ := hs6
  obtain ⟨rfl, rfl⟩ := hd
  have hs : (if w.iteration == 0 then
      ({ w with st := { w.st with strain := x },
                effusionRate := v * w.terrain.width * w.terrain.depth } : World α)
      else { w with st := { w.st with strain := x } }) =
      { w with st := { w.st with strain := x }, effusionRate := w.stepEffusion v } := by
    unfold World.stepEffusion; split <;> rfl
  rw [hs] at hw hsl hh
  simp only at hw hsl hh
  rw [density_strain] at hw
  obtain ⟨y, es0, ht, hn, _⟩ := heatBudget_ok hh
  have ht' : s5 = ({ w with effusionRate := w.stepEffusion v } : World α).touched y
    (es0 ++ [("heat_budget", .num heat)]) := ht
  refine ⟨_, y, ⟨rfl, ?_, hw, hsl, hh, ht', ⟨es0, rfl, hn⟩, ?_, ?_, rfl, rfl, ?_, ?_⟩⟩
  · simp only; rw [hs]
  · rw [ht'] at hr
    exact hr ▸ (crystRate_strain _ _ _).symm
  · rw [hs] at hdt
    simp only at hdt
    rw [density_strain] at hdt
    rw [ht'] at hdt
    exact hdt
  · simp only; rw [ht']; rfl
  · simp only; rw [ht']; rfl

/-- The cells written by flowgo_integrator.py:149-181. -/
def stepEntries (g : Integrator α) (d : StepData α) (s : FlowState α) (effusionRate visc tc f tho0 thob : α) :
    List (String × Cell α) :=
  [("channel_width", .num d.width), ("crystal_fraction", .num s.crystal), ("core_temperature", .num s.temp),
   ("strain_rate", .num s.strain), ("vesicle_fraction", .num (g.models.lava.vesicleFraction s)),
   ("viscosity", .num visc), ("density", .num (g.models.lava.density s)), ("mean_velocity", .num d.v),
   ("crust_temperature", .num tc), ("effective_cover_fraction", .num f), ("dphi_dx", .num d.dphiDx),
   ("dtemp_dx", .num d.dtempDx), ("dphi_dtemp", .num d.rate), ("dtemp_dt", .num d.dtempDt),
   ("slope", .num d.slope), ("effusion_rate", .text effusionRate), ("channel_depth", .num d.depth),
   ("tho_0", .num tho0), ("tho_b", .num thob)]

theorem effectiveCover_ok {m : Models α} {w w' : World α} {f : α} (h : effectiveCover m w = (.ok f, w')) :
    ∃ v x, m.lava.meanVelocity w.terrain w.st = .ok (v, x) ∧ f = m.cover.value w.st.pos v ∧
      w' = { w with st := { w.st with strain := x } } := by
  unfold effectiveCover at h
  simp only [PyM.bind_eq_ok, PyM.get_apply, PyM.pure_apply] at h
  obtain ⟨_, _, hg, v, s2, hv, hf⟩ := h
  simp only [Prod.mk.injEq, Except.ok.injEq] at hg hf
  obtain ⟨rfl, rfl⟩ := hg
  obtain ⟨rfl, rfl⟩ := hf
  obtain ⟨x, h1, h2⟩ := meanVelocityM_ok hv
  exact ⟨v, x, h1, rfl, h2⟩

omit [Add α] [Sub α] [Mul α] [Neg α] [OfScientific α] in
theorem log_step {β : Type} (n : String) (v : α) (f : Unit → PyM (World α) β) (w : World α) (x : α)
    (es : List (String × Cell α)) :
    (logNum n v >>= f) (w.touched x es) = f () (w.touched x (es ++ [(n, .num v)])) := by
  rw [PyM.bind_of_ok (b := ()) (s1 := w.touched x (es ++ [(n, .num v)]))]
  simp only [logNum, logCell, PyM.modify_apply, World.touched, Log.addAll_append]
  rfl

omit [Add α] [Sub α] [Mul α] [Neg α] [OfScientific α] in
theorem logCell_step {β : Type} (n : String) (v : Cell α) (f : Unit → PyM (World α) β) (w : World α) (x : α)
    (es : List (String × Cell α)) :
    (logCell n v >>= f) (w.touched x es) = f () (w.touched x (es ++ [(n, v)])) := by
  rw [PyM.bind_of_ok (b := ()) (s1 := w.touched x (es ++ [(n, v)]))]
  simp only [logCell, PyM.modify_apply, World.touched, Log.addAll_append]
  rfl

theorem stepLog_ok {g : Integrator α} {d : StepData α} {w w' : World α}
    (h : stepLog g d w = (.ok (), w')) :
    ∃ visc tc f v' y tho0 thob, g.models.lava.bulkViscosity w.st = .ok visc ∧
      g.models.crust.temperature w.st = .ok tc ∧
      g.models.lava.meanVelocity w.terrain w.st = .ok (v', y) ∧ f = g.models.cover.value w.st.pos v' ∧
      g.models.lava.yieldStrength w.st = .ok tho0 ∧ g.models.lava.basalStress w.terrain w.st = .ok thob ∧
      w' = w.touched y (stepEntries g d w.st w.effusionRate visc tc f tho0 thob) := by
  unfold stepLog at h
  rw [PyM.bind_of_ok (PyM.get_apply w)] at h
  generalize hs : w.st = s at h
  rw [← World.touched_nil w, hs] at h
  rw [log_step, log_step, log_step, log_step, log_step] at h
  obtain ⟨visc, w1, h1, h⟩ := PyM.bind_eq_ok.mp h
  obtain ⟨hvisc, rfl⟩ := PyM.lift_eq_ok.mp h1
  rw [log_step, log_step, log_step] at h
  obtain ⟨tc, w1, h1, h⟩ := PyM.bind_eq_ok.mp h
  simp only [crustTemperature, Prod.mk.injEq] at h1
  obtain ⟨htc, rfl⟩ := h1
  rw [log_step] at h
  obtain ⟨f, w1, h1, h⟩ := PyM.bind_eq_ok.mp h
  obtain ⟨v', y, hv', hf, rfl⟩ := effectiveCover_ok h1
  have e : ∀ es : List (String × Cell α), ({ w.touched s.strain es with
      st := { (w.touched s.strain es).st with strain := y } } : World α) = w.touched y es := fun es => rfl
  rw [e] at h
  rw [log_step, log_step, log_step, log_step, log_step, log_step] at h
  rw [PyM.bind_of_ok (PyM.get_apply _)] at h
  have e2 : ∀ es : List (String × Cell α), (w.touched y es).effusionRate = w.effusionRate := fun _ => rfl
  have e3 : ∀ es : List (String × Cell α), (w.touched y es).st = { s with strain := y } := fun _ => by
    rw [← hs]; rfl
  have e4 : ∀ es : List (String × Cell α), (w.touched y es).terrain = w.terrain := fun _ => rfl
  rw [e2, e3, e4] at h
  rw [logCell_step, log_step] at h
  obtain ⟨t0, w1, h1, h⟩ := PyM.bind_eq_ok.mp h
  obtain ⟨ht0, rfl⟩ := PyM.lift_eq_ok.mp h1
  rw [log_step] at h
  obtain ⟨tb, w1, h1, h⟩ := PyM.bind_eq_ok.mp h
  obtain ⟨htb, rfl⟩ := PyM.lift_eq_ok.mp h1
  rw [← PyM.bind_pure (logNum "tho_b" tb), log_step, PyM.pure_apply] at h
  have e5 : ∀ es : List (String × Cell α), (w.touched s.strain es).st = s := fun _ => by
    rw [← hs]; rfl
  have e6 : ∀ es : List (String × Cell α), (w.touched s.strain es).terrain = w.terrain := fun _ => rfl
  rw [e5] at htc
  rw [e5, e6] at hv'
  rw [e5] at hf
  simp only [Prod.mk.injEq, true_and] at h
  refine ⟨visc, tc, f, v', y, t0, tb, hvisc, htc, hv', hf, ?_, ?_, ?_⟩
  · rw [← ht0]; simp only [Lava.yieldStrength, yield_strain]
  · rw [basal_strain] at htb; exact htb
  · rw [← h]; simp only [List.nil_append, List.cons_append, stepEntries]

/-- The stop tests after an accepted step (flowgo_integrator.py:194-212) as a function. -/
def stopTest (g : Integrator α) (t : Terrain α) (s : FlowState α) : Except Err Bool :=
  if leB s.temp g.models.cryst.solidTemperature then .ok true
  else do
    let nc ← g.models.lava.notCompatible s
    if nc then pure true
    else do
      let yc ← g.models.lava.yieldNotCompatible t s
      if yc then pure true else pure (leB t.maxLength s.pos)

theorem stepStop_ok {g : Integrator α} {d : StepData α} {w w' : World α} (hd : w.st.temp = d.newTemp)
    (h : stepStop g d w = (.ok (), w')) :
    ∃ b, stopTest g w.terrain w.st = .ok b ∧ w' = { w with finished := w.finished || b } := by
  unfold stepStop at h
  rw [PyM.bind_of_ok (PyM.get_apply w)] at h
  unfold stopTest
  rw [hd]
  split at h
  · rename_i hc
    rw [if_pos hc]
    simp only [setFinished, PyM.modify_apply, Prod.mk.injEq, true_and] at h
    exact ⟨true, rfl, by rw [← h]; simp⟩
  · rename_i hc
    rw [if_neg hc]
    simp only [PyM.bind_eq_ok, PyM.lift_eq_ok] at h
    obtain ⟨nc, _, ⟨hnc, rfl⟩, h⟩ := h
    rw [hnc, ok_bind]
    split at h
    · rename_i hc2
      rw [if_pos hc2]
      simp only [setFinished, PyM.modify_apply, Prod.mk.injEq, true_and] at h
      exact ⟨true, rfl, by rw [← h]; simp⟩
    · rename_i hc2
      rw [if_neg hc2]
      simp only [PyM.bind_eq_ok, PyM.lift_eq_ok] at h
      obtain ⟨yc, _, ⟨hyc, rfl⟩, h⟩ := h
      rw [hyc, ok_bind]
      split at h
      · rename_i hc3
        rw [if_pos hc3]
        simp only [setFinished, PyM.modify_apply, Prod.mk.injEq, true_and] at h
        exact ⟨true, rfl, by rw [← h]; simp⟩
      · rename_i hc3
        rw [if_neg hc3]
        refine ⟨_, rfl, ?_⟩
        split at h
        · rename_i hc4
          simp only [setFinished, PyM.modify_apply, Prod.mk.injEq, true_and] at h
          rw [hc4, ← h]; simp
        · rename_i hc4
          simp only [PyM.pure_apply, Prod.mk.injEq, true_and] at h
          rw [← h]; simp [hc4]

/-- How a step that did not raise ended. -/
inductive StepOutcome (g : Integrator α) (w w' : World α) : Prop where
  /-- the velocity is not positive -/
  | still (v x : α) (hv : g.models.lava.meanVelocity w.terrain w.st = .ok (v, x))
      (hle : leB v 0.0 = true)
      (hw : w' = { w with st := { w.st with strain := x }, finished := true })
  /-- the crystal fraction would not increase -/
  | noGrowth (v x : α) (hv : g.models.lava.meanVelocity w.terrain w.st = .ok (v, x))
      (hle : leB v 0.0 = false) (d : StepData α) (w1 : World α) (es : List (String × Cell α)) (y : α)
      (facts : StepFacts g w v x d w1 es y)
      (hphi : leB d.newPhi w.st.crystal = true)
      (hw : w' = { w1 with finished := true })
  /-- accepted -/
  | accepted (v x : α) (hv : g.models.lava.meanVelocity w.terrain w.st = .ok (v, x))
      (hle : leB v 0.0 = false) (d : StepData α) (w1 : World α) (es : List (String × Cell α)) (y : α)
      (facts : StepFacts g w v x d w1 es y)
      (hphi : leB d.newPhi w.st.crystal = false)
      (visc tc f v2 y2 tho0 thob : α)
      (hvisc : g.models.lava.bulkViscosity w1.st = .ok visc)
      (htc : g.models.crust.temperature w1.st = .ok tc)
      (hv2 : g.models.lava.meanVelocity w.terrain w1.st = .ok (v2, y2))
      (hf : f = g.models.cover.value w.st.pos v2)
      (ht0 : g.models.lava.yieldStrength w.st = .ok tho0)
      (htb : g.models.lava.basalStress w.terrain w.st = .ok thob)
      (dt strain : α) (hdt : PyNum.div g.dx v = .ok dt)
      (hst : PyNum.div (3.0 * v) w.terrain.depth = .ok strain)
      (s' : FlowState α)
      (hs : s' = { crystal := d.newPhi, temp := d.newTemp, pos := w.st.pos + g.dx,
                   time := w.st.time + dt, strain := strain })
      (stop : Bool) (hstop : stopTest g w.terrain s' = .ok stop)
      (hw : w' = { st := s', terrain := w.terrain,
                   log := w.log.addAll (.num w.st.pos)
                     (es ++ stepEntries g d w1.st (w.stepEffusion v) visc tc f tho0 thob),
                   effusionRate := w.stepEffusion v, fluxRate := w.fluxRate,
                   iteration := w.iteration + 1, finished := w.finished || stop })

/-- The world after the update of an accepted step. -/
theorem update_world (w : World α) (er y y2 phi temp dx dt strain : α) (stop : Bool)
    (es es' : List (String × Cell α)) (W : World α)
    (hW : W = (({ w with effusionRate := er } : World α).touched y es).touched y2 es') :
    ({ W with
        st := { crystal := phi, temp := temp, pos := W.st.pos + dx, time := W.st.time + dt, strain := strain },
        iteration := W.iteration + 1, finished := W.finished || stop } : World α) =
      { st := { crystal := phi, temp := temp, pos := w.st.pos + dx, time := w.st.time + dt, strain := strain },
        terrain := w.terrain, log := w.log.addAll (.num w.st.pos) (es ++ es'), effusionRate := er,
        fluxRate := w.fluxRate, iteration := w.iteration + 1, finished := w.finished || stop } := by
  rw [hW, World.touched_touched]; rfl

theorem singleStep_ok {g : Integrator α} {w w' : World α} (h : singleStep g w = (.ok (), w')) :
    StepOutcome g w w' := by
  unfold singleStep at h
  obtain ⟨v, w0, hv0, h⟩ := PyM.bind_eq_ok.mp h
  obtain ⟨x, hv, rfl⟩ := meanVelocityM_ok hv0
  split at h
  · rename_i hle
    simp only [setFinished, PyM.modify_apply, Prod.mk.injEq, true_and] at h
    exact .still v x hv hle h.symm
  · rename_i hle
    have hle : leB v 0.0 = false := by simpa using hle
    obtain ⟨d, w1, hd, h⟩ := PyM.bind_eq_ok.mp h
    obtain ⟨es, y, facts⟩ := stepCompute_ok hd
    have hcr : w1.st.crystal = w.st.crystal := by rw [facts.touched]; rfl
    rw [PyM.bind_of_ok (PyM.get_apply w1), hcr] at h
    split at h
    · rename_i hphi
      simp only [setFinished, PyM.modify_apply, Prod.mk.injEq, true_and] at h
      exact .noGrowth v x hv hle d w1 es y facts hphi h.symm
    · rename_i hphi
      have hphi : leB d.newPhi w.st.crystal = false := by simpa using hphi
      obtain ⟨_, w2, hlog, h⟩ := PyM.bind_eq_ok.mp h
      obtain ⟨_, w3, hup, h⟩ := PyM.bind_eq_ok.mp h
      obtain ⟨visc, tc, f, v2, y2, t0, tb, hvisc, htc, hv2, hf, ht0, htb, hw2⟩ := stepLog_ok hlog
      clear hlog
      have ht := facts.touched
      have e1 : w1.terrain = w.terrain := by rw [ht]; rfl
      have e2 : w1.st.pos = w.st.pos := by rw [ht]; rfl
      have e3 : w1.effusionRate = w.stepEffusion v := by rw [ht]; rfl
      have e4 : w1.st = { w.st with strain := w1.st.strain } := by rw [ht]; rfl
      rw [e1] at hv2 htb
      rw [e2] at hf
      rw [e3] at hw2
      rw [e4, Lava.yieldStrength, yield_strain] at ht0
      rw [e4, basal_strain] at htb
      generalize hE : stepEntries g d w1.st (w.stepEffusion v) visc tc f t0 tb = E at hw2
      simp only [stepUpdate, PyM.bind_eq_ok, PyM.modify_apply, PyM.lift_eq_ok, Prod.mk.injEq] at hup
      obtain ⟨_, _, ⟨_, rfl⟩, dt, _, ⟨hdt, rfl⟩, _, _, ⟨_, rfl⟩, strain, _, ⟨hst, rfl⟩, _, rfl⟩ := hup
      obtain ⟨stop, hstop, hw⟩ := stepStop_ok (by rfl) h
      rw [facts.v_eq] at hdt hst
      rw [facts.depth_eq] at hst
      have e5 : w2.terrain = w.terrain := by rw [hw2, ← e1]; rfl
      have e6 : w2.st.pos = w.st.pos := by rw [hw2, ← e2]; rfl
      have e7 : w2.st.time = w.st.time := by rw [hw2, ht]; rfl
      simp only [e5, e6, e7] at hstop
      refine .accepted v x hv hle d w1 es y facts hphi visc tc f v2 y2 t0 tb hvisc htc hv2 hf ht0 htb dt strain
        hdt hst _ rfl stop hstop ?_
      rw [hE, hw]
      exact update_world w (w.stepEffusion v) y y2 d.newPhi d.newTemp g.dx dt strain stop es E w2
        (by rw [hw2, ht])

end PyFlowGo
