import Verif.Proofs.Swap
import Verif.Proofs.StepReal
import Verif.Proofs.CutLoop
import Verif.Spec.Resume
/-
  The same world later in a run: more rows in the log, a larger iteration counter, another width (which is only read at the first iteration).
-/
set_option linter.unusedSectionVars false
namespace PyFlowGo
open Spec

/-- What a world that is later in a run has beyond one that starts there: the rows so far, the width the run was configured with, its `effusion_rate_init`,
    what the mass flux is, the iterations so far and the time elapsed. -/
structure Earlier where
  rows : Log (Cell ℝ)
  width : ℝ
  init : ℝ
  flux : Option ℝ
  steps : Nat
  clock : ℝ

/-- A world later in a run (the rows at the present position left out). -/
noncomputable def World.later (K : Earlier) (w : World ℝ) : World ℝ :=
  { w with st := { w.st with time := w.st.time + K.clock }
           log := K.rows.filter (fun r => !r.atPosition (.num w.st.pos)) ++ w.log
           iteration := w.iteration + K.steps
           fluxRate := K.flux
           terrain := { w.terrain with width := K.width, effusionRateInit := K.init } }

/-- The same set-up with another eruption temperature in the lava (which no method of the lava reads) and another crystallisation model. -/
noncomputable def Integrator.erupted (T : ℝ) (c : CrystModel ℝ) (g : Integrator ℝ) : Integrator ℝ :=
  { g with models := { g.models with lava := { g.models.lava with eruptionT := T }, cryst := c } }

theorem add_elsewhere {ν : Type} [BEq ν] (pre log : Log ν) (n : String) (x v : ν) (h : ∀ r ∈ pre, r.atPosition x = false) :
    Log.addVariable (pre ++ log) n x v = pre ++ Log.addVariable log n x v := by
  induction pre with
  | nil => rfl
  | cons r pre ih =>
    show Log.addVariable (r :: (pre ++ log)) n x v = _
    rw [Log.addVariable, if_neg (by rw [h r List.mem_cons_self]; decide), ih fun r' hr' => h r' (List.mem_cons_of_mem _ hr')]
    rfl

theorem loop_erupted (l : Lava ℝ) (T : ℝ) (s : FlowState ℝ) (d t0 tb : ℝ) (n : Nat) (x : ℝ) :
    velocityLoop { l with eruptionT := T } s d t0 tb n x = velocityLoop l s d t0 tb n x := by
  induction n generalizing x with
  | zero => rfl
  | succ n ih =>
    unfold velocityLoop
    rw [show ({ l with eruptionT := T } : Lava ℝ).bulkViscosity s = l.bulkViscosity s from rfl]
    simp only [ih]

theorem basal_later (K : Earlier) (l : Lava ℝ) (w : World ℝ) : l.basalStress (w.later K).terrain (w.later K).st = l.basalStress w.terrain w.st := by
  unfold Lava.basalStress
  rw [show l.density (w.later K).st = l.density w.st from density_time l w.st _]
  rfl

theorem velocity_later (K : Earlier) (l : Lava ℝ) (T : ℝ) (w : World ℝ) :
    l.meanVelocity (w.later K).terrain (w.later K).st = ({ l with eruptionT := T } : Lava ℝ).meanVelocity w.terrain w.st := by
  have hb : ({ l with eruptionT := T } : Lava ℝ).basalStress w.terrain w.st = l.basalStress w.terrain w.st := rfl
  have hy : ({ l with eruptionT := T } : Lava ℝ).yieldStrength w.st = l.yieldStrength w.st := rfl
  unfold Lava.meanVelocity
  rw [hb, hy, basal_later, show l.yieldStrength (w.later K).st = l.yieldStrength w.st from yield_time l w.st _]
  simp only [loop_erupted]
  have : ∀ t0 tb n x, velocityLoop l (w.later K).st (w.later K).terrain.depth t0 tb n x = velocityLoop l w.st w.terrain.depth t0 tb n x :=
    fun t0 tb n x => velocityLoop_time l w.st _ _ t0 tb n x
  simp only [this]
  rfl

theorem later_log {K : Earlier} {w : World ℝ} (h : ∀ r ∈ K.rows, r.atPosition (.num w.st.pos) = false) : (w.later K).log = K.rows ++ w.log := by
  unfold World.later
  have : K.rows.filter (fun r => !r.atPosition (.num w.st.pos)) = K.rows := List.filter_eq_self.mpr fun r hr => by rw [h r hr]; rfl
  dsimp only
  rw [this]

theorem later_all {K : Earlier} {w : World ℝ} (h : ∀ r ∈ K.rows, r.atPosition (.num w.st.pos) = false) :
    w.later K = { w with st := { w.st with time := w.st.time + K.clock }, log := K.rows ++ w.log, iteration := w.iteration + K.steps, fluxRate := K.flux,
                         terrain := { w.terrain with width := K.width, effusionRateInit := K.init } } := by
  rw [← later_log h]
  rfl

/-- What is needed of the set-up: crystals grow alike, the width does not follow from mass conservation, and the crust does not read the clock (or the clock is
    the same). -/
structure Restartable (g : Integrator ℝ) (c : CrystModel ℝ) (K : Earlier) : Prop where
  growth : SameGrowth g.models.cryst c
  mass : g.massConservation = false
  clock : g.models.crust.readsClock → K.clock = 0

theorem steady_later {g : Integrator ℝ} {c : CrystModel ℝ} {K : Earlier} (hc : Restartable g c K) (T : ℝ) : Steady (g.erupted T c) g (World.later K) where
  dx := rfl
  mass := rfl
  air := rfl
  fluxes := rfl
  latent := rfl
  solid := hc.growth.solid.symm
  vel := by
    intro w
    unfold meanVelocityM
    have h : g.models.lava.meanVelocity (w.later K).terrain (w.later K).st = (g.erupted T c).models.lava.meanVelocity w.terrain w.st := velocity_later K _ T w
    rw [h]
    cases (g.erupted T c).models.lava.meanVelocity w.terrain w.st <;> rfl
  crust w := crust_time _ w.st _ fun h => by rw [hc.clock h, add_zero]
  cover _ _ := rfl
  molten _ := rfl
  vesicle w := ves_time _ w.st _
  density w := density_time _ w.st _
  bulk w := bulk_time _ w.st _
  yield_ w := yield_time _ w.st _
  basal w := basal_later K _ w
  compat w := notCompatible_time _ w.st _
  rate w := (rate_time _ w.st _).trans (hc.growth.rate _).symm
  slope _ := rfl
  depth _ := rfl
  rates _ := rfl
  flux h _ := by rw [show (g.erupted T c).massConservation = g.massConservation from rfl, hc.mass] at h; cases h
  temp _ := rfl
  crystal _ := rfl
  strain _ := rfl
  fin _ := rfl
  length _ := rfl
  logs n v _ := by
    intro w
    show (_, _) = (_, _)
    congr 1
    unfold World.later
    dsimp only
    rw [add_elsewhere _ _ _ _ _ fun r hr => ?_]
    · rfl
    · have := (List.mem_filter.mp hr).2
      simpa using this
  setTime w t := by
    unfold World.later
    dsimp only
    rw [add_right_comm]
  setStrain w x := by
    unfold World.later
    dsimp only
    rw [Nat.add_right_comm]
  finish _ := rfl

/-- A step after the computation of the effusion rate. -/
noncomputable def stepTail (g : Integrator ℝ) (v : ℝ) : PyM (World ℝ) Unit := do
  let d ← stepRest g v
  let w ← PyM.get
  if leB d.newPhi w.st.crystal then setFinished
  else do
    stepLog g d
    stepUpdate g d
    stepStop g d

theorem stays_rest (g : Integrator ℝ) (v x : ℝ) (t : Terrain ℝ) : Preserves (Stays x t) (stepRest g v) := by
  unfold stepRest
  exact Preserves.bind Preserves.get fun w => Preserves.bind (Preserves.lift _) fun _ =>
    Preserves.bind (Preserves.lift _) fun _ => Preserves.bind (stays_of_emits (Emits.heatBudget _ _ _) x t) fun _ =>
    Preserves.bind Preserves.get fun _ => Preserves.bind (Preserves.lift _) fun _ => Preserves.bind (Preserves.lift _) fun _ => Preserves.pure _

/-- The tail of a step later in the run, if none of the earlier rows lies where the step starts or ends. -/
theorem tail_later {g : Integrator ℝ} {c : CrystModel ℝ} {K : Earlier} (hc : Restartable g c K) (T : ℝ) (v : ℝ) (w : World ℝ) (h0 : ∀ r ∈ K.rows, r.atPosition (.num w.st.pos) = false)
    (h1 : ∀ r ∈ K.rows, r.atPosition (.num (w.st.pos + g.dx)) = false) :
    stepTail g v (w.later K) = ((stepTail (g.erupted T c) v w).1, (stepTail (g.erupted T c) v w).2.later K) := by
  have S := steady_later hc T
  unfold stepTail
  rw [PyM.bind_apply, PyM.bind_apply, S.rest v w]
  cases e2 : stepRest (g.erupted T c) v w with
  | mk r2 w2 =>
  have k2 := stays_rest (g.erupted T c) v w.st.pos w.terrain w r2 w2 ⟨rfl, rfl⟩ e2
  cases r2 with
  | error e => rfl
  | ok d =>
  dsimp only
  rw [PyM.bind_of_ok (PyM.get_apply _), PyM.bind_of_ok (PyM.get_apply _), S.crystal]
  by_cases c2 : leB d.newPhi w2.st.crystal = true
  · rw [if_pos c2, if_pos c2]
    exact S.setFin w2
  rw [if_neg c2, if_neg c2, PyM.bind_apply, PyM.bind_apply, S.log d w2]
  cases e3 : stepLog (g.erupted T c) d w2 with
  | mk r3 w3 =>
  have k3 := stays_of_emits (Emits.stepLog (g.erupted T c) d) w.st.pos w.terrain w2 r3 w3 k2 e3
  cases r3 with
  | error e => rfl
  | ok u =>
  dsimp only
  have up : stepUpdate g d (w3.later K) = ((stepUpdate (g.erupted T c) d w3).1, (stepUpdate (g.erupted T c) d w3).2.later K) := by
    unfold stepUpdate
    have move : ({ w3.later K with st := { (w3.later K).st with crystal := d.newPhi, temp := d.newTemp, pos := (w3.later K).st.pos + g.dx } } : World ℝ) =
        ({ w3 with st := { w3.st with crystal := d.newPhi, temp := d.newTemp, pos := w3.st.pos + (g.erupted T c).dx } } : World ℝ).later K := by
      rw [later_all (by rw [k3.1]; exact h0), later_all (by dsimp only; rw [k3.1]; exact h1)]
      rfl
    have rest : Commutes (World.later K) (do
        let dt ← PyM.lift (PyNum.div (g.erupted T c).dx d.v)
        PyM.modify fun w => { w with st := { w.st with time := w.st.time + dt } }
        let strain ← PyM.lift (PyNum.div (3.0 * d.v) d.depth)
        PyM.modify fun w => { w with st := { w.st with strain := strain }, iteration := w.iteration + 1 }) (do
        let dt ← PyM.lift (PyNum.div g.dx d.v)
        PyM.modify fun w => { w with st := { w.st with time := w.st.time + dt } }
        let strain ← PyM.lift (PyNum.div (3.0 * d.v) d.depth)
        PyM.modify fun w => { w with st := { w.st with strain := strain }, iteration := w.iteration + 1 }) :=
      Commutes.bind (Commutes.lift rfl) fun dt => Commutes.bind (Commutes.modify fun w => S.setTime w dt) fun _ =>
        Commutes.bind (Commutes.lift rfl) fun x => Commutes.modify fun w => S.setStrain w x
    have := rest { w3 with st := { w3.st with crystal := d.newPhi, temp := d.newTemp, pos := w3.st.pos + (g.erupted T c).dx } }
    rw [← move] at this
    exact this
  rw [PyM.bind_apply, PyM.bind_apply, up]
  cases stepUpdate (g.erupted T c) d w3 with
  | mk r4 w4 =>
  cases r4 with
  | error e => rfl
  | ok u4 => exact S.stop d w4

theorem singleStep_tail (g : Integrator ℝ) (w : World ℝ) (v x : ℝ) (hv : g.models.lava.meanVelocity w.terrain w.st = .ok (v, x)) (hpos : ¬ leB v 0.0 = true) :
    singleStep g w = stepTail g v (setEffusionRate v { w with st := { w.st with strain := x } }).2 := by
  unfold singleStep
  have e : meanVelocityM g.models.lava w = (.ok v, { w with st := { w.st with strain := x } }) := by
    unfold meanVelocityM
    rw [hv]
  rw [PyM.bind_of_ok e, if_neg hpos, PyM.bind_apply, stepCompute_rest, PyM.bind_apply]
  rfl

/-- The computation of the effusion rate in the first iteration and in a later one. -/
theorem setRate_first (v : ℝ) (w : World ℝ) : (setEffusionRate v w).2 = { w with effusionRate := w.stepEffusion v } := by
  unfold setEffusionRate World.stepEffusion
  rw [PyM.modify_apply]
  by_cases ci : (w.iteration == 0) = true
  · rw [if_pos ci, if_pos (by simpa using ci)]
  · rw [if_neg ci, if_neg (by simpa using ci)]

/-- A step taken again with the iterations counted from here. -/
theorem step_later {g : Integrator ℝ} {c : CrystModel ℝ} {K : Earlier} (hc : Restartable g c K) (T E e : ℝ) (w : World ℝ) (v x : ℝ)
    (hv : (g.erupted T c).models.lava.meanVelocity w.terrain w.st = .ok (v, x)) (hpos : ¬ leB v 0.0 = true) (hE : w.stepEffusion v = E)
    (hA : (({ w with effusionRate := e } : World ℝ).later K).stepEffusion v = E)
    (h0 : ∀ r ∈ K.rows, r.atPosition (.num w.st.pos) = false) (h1 : ∀ r ∈ K.rows, r.atPosition (.num (w.st.pos + g.dx)) = false) :
    singleStep g (({ w with effusionRate := e } : World ℝ).later K) =
      ((singleStep (g.erupted T c) w).1, (singleStep (g.erupted T c) w).2.later K) := by
  rw [singleStep_tail (g.erupted T c) w v x hv hpos, singleStep_tail g _ v x (by rw [← hv]; exact velocity_later K _ T _) hpos, setRate_first, setRate_first]
  have e1 : ({ ({ w with effusionRate := e } : World ℝ).later K with
        st := { (({ w with effusionRate := e } : World ℝ).later K).st with strain := x } } : World ℝ).stepEffusion v = E := hA
  have e2 : ({ w with st := { w.st with strain := x } } : World ℝ).stepEffusion v = E := hE
  rw [e1, e2]
  exact tail_later hc T v { w with st := { w.st with strain := x }, effusionRate := E } h0 h1

theorem step_error (g : Integrator ℝ) (w : World ℝ) (e : Err) (hv : g.models.lava.meanVelocity w.terrain w.st = .error e) : singleStep g w = (.error e, w) := by
  have h : meanVelocityM g.models.lava w = (.error e, w) := by
    unfold meanVelocityM
    rw [hv]
  unfold singleStep
  rw [PyM.bind_apply, h]

theorem step_still (g : Integrator ℝ) (w : World ℝ) (v x : ℝ) (hv : g.models.lava.meanVelocity w.terrain w.st = .ok (v, x)) (hle : leB v 0.0 = true) :
    singleStep g w = (.ok (), { w with st := { w.st with strain := x }, finished := true }) := by
  have h : meanVelocityM g.models.lava w = (.ok v, { w with st := { w.st with strain := x } }) := by
    unfold meanVelocityM
    rw [hv]
  unfold singleStep
  rw [PyM.bind_of_ok h, if_pos hle]
  rfl

/-- A run taken up again: the iterations counted from here, the rows so far left out. -/
theorem resume_loop {g : Integrator ℝ} {c : CrystModel ℝ} {K : Earlier} (hc : Restartable g c K) (T E : ℝ) (n : Nat) : ∀ (e : ℝ) (w A' : World ℝ),
    (w.finished = false → ∀ v x, (g.erupted T c).models.lava.meanVelocity w.terrain w.st = .ok (v, x) → ¬ leB v 0.0 = true →
      w.stepEffusion v = E ∧ (({ w with effusionRate := e } : World ℝ).later K).stepEffusion v = E) →
    (∀ r ∈ K.rows, ∀ i : ℕ, r.atPosition (.num (w.st.pos + i * g.dx)) = false) →
    runLoop g n (({ w with effusionRate := e } : World ℝ).later K) = some (.ok (), A') →
    ∃ w', runLoop (g.erupted T c) n w = some (.ok (), w') ∧ A'.log = K.rows ++ w'.log ∧ A'.st = { w'.st with time := w'.st.time + K.clock } := by
  induction n with
  | zero =>
    intro e w A' _ hpre h
    have h0 : ∀ r ∈ K.rows, r.atPosition (.num w.st.pos) = false := fun r hr => by have := hpre r hr 0; simpa using this
    rw [later_all (w := { w with effusionRate := e }) h0] at h
    unfold runLoop at h ⊢
    dsimp only at h
    by_cases cf : w.finished = true
    · rw [if_pos cf] at h ⊢
      injection h with h
      injection h with _ h
      subst h
      exact ⟨w, rfl, rfl, rfl⟩
    · rw [if_neg cf] at h
      cases h
  | succ n ih =>
    intro e w A' hE hpre h
    have h0 : ∀ r ∈ K.rows, r.atPosition (.num w.st.pos) = false := fun r hr => by have := hpre r hr 0; simpa using this
    have h1 : ∀ r ∈ K.rows, r.atPosition (.num (w.st.pos + g.dx)) = false := fun r hr => by have := hpre r hr 1; simpa using this
    by_cases cf : w.finished = true
    · rw [runLoop_finished _ _ _ (by exact cf)] at h
      injection h with h
      injection h with _ h
      subst h
      exact ⟨w, runLoop_finished _ _ _ cf, later_log (w := { w with effusionRate := e }) h0, rfl⟩
    · have c' : w.finished = false := by simpa using cf
      unfold runLoop at h ⊢
      rw [if_neg cf]
      rw [if_neg (by exact cf)] at h
      cases hv : (g.erupted T c).models.lava.meanVelocity w.terrain w.st with
      | error er =>
        exfalso
        have hA : g.models.lava.meanVelocity (({ w with effusionRate := e } : World ℝ).later K).terrain
            (({ w with effusionRate := e } : World ℝ).later K).st = .error er := by
          rw [← hv]; exact (velocity_later K _ T _)
        rw [step_error _ _ _ hA] at h
        cases h
      | ok p =>
        obtain ⟨v, x⟩ := p
        have hA : g.models.lava.meanVelocity (({ w with effusionRate := e } : World ℝ).later K).terrain
            (({ w with effusionRate := e } : World ℝ).later K).st = .ok (v, x) := by
          rw [← hv]; exact (velocity_later K _ T _)
        by_cases hle : leB v 0.0 = true
        · have eA : singleStep g (({ w with effusionRate := e } : World ℝ).later K) =
              (.ok (), ({ w with effusionRate := e, st := { w.st with strain := x }, finished := true } : World ℝ).later K) := by
            rw [step_still _ _ _ _ hA hle]
            rfl
          rw [eA] at h
          rw [step_still _ _ _ _ hv hle]
          dsimp only at h ⊢
          rw [runLoop_finished _ _ _ rfl] at h
          rw [runLoop_finished _ _ _ rfl]
          injection h with h
          injection h with _ h
          subst h
          refine ⟨_, rfl, ?_, rfl⟩
          rw [later_all (w := { w with effusionRate := e, st := { w.st with strain := x }, finished := true }) h0]
        · obtain ⟨hEE, hAE⟩ := hE c' v x hv hle
          rw [step_later hc T E e w v x hv hle hEE hAE h0 h1] at h
          cases hs : singleStep (g.erupted T c) w with
          | mk r w1 =>
          rw [hs] at h
          cases r with
          | error er => cases h
          | ok u =>
          dsimp only at h ⊢
          cases singleStep_ok hs with
          | still v' x' hv' hle' hw =>
            exfalso
            rw [hv] at hv'
            injection hv' with hv'
            injection hv' with hv' _
            subst hv'
            exact hle hle'
          | noGrowth v' x' hv' hle' d w2 es y facts hphi hw =>
            have f1 : w1.finished = true := by rw [hw]
            have p1 : w1.st.pos = w.st.pos := by rw [hw, facts.touched]; rfl
            rw [runLoop_finished _ _ _ (by exact f1)] at h
            rw [runLoop_finished _ _ _ f1]
            injection h with h
            injection h with _ h
            subst h
            refine ⟨w1, rfl, ?_, rfl⟩
            rw [later_all (by rw [p1]; exact h0)]
          | accepted v' x' hv' hle' d w2 es y facts hphi visc tc f v2 y2 tho0 thob hvisc htc hv2 hf ht0 htb dt strain hdt hst s' hs' stop hstop hw =>
            have i1 : w1.iteration = w.iteration + 1 := by rw [hw]
            have p1 : w1.st.pos = w.st.pos + g.dx := by rw [hw, hs']; rfl
            have e1 : w1.effusionRate = E := by
              rw [hv] at hv'
              injection hv' with hv'
              injection hv' with hv' _
              subst hv'
              rw [hw, ← hEE]
            have same : ({ w1 with effusionRate := E } : World ℝ) = w1 := by rw [← e1]
            refine ih E w1 A' (fun _ v'' x'' _ _ => ?_) (fun r hr i => ?_) (by rw [same]; exact h)
            · unfold World.stepEffusion
              rw [if_neg (by rw [i1]; simp), if_neg (by show ¬ ((w1.iteration + K.steps == 0) = true); rw [i1]; simp), e1]
              exact ⟨rfl, rfl⟩
            · have := hpre r hr (i + 1)
              rw [p1]
              convert this using 3
              push_cast
              ring

end PyFlowGo
