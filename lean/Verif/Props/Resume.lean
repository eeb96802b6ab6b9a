import Verif.Proofs.Resume
import Verif.Proofs.RunTable
import Verif.Proofs.StrainFree
import Verif.Props.SupplyConfig
import Verif.Props.HarsherConfig
import Verif.Props.RunLog
import Verif.Props.RunText
/-
  C127: a flow can be taken up again at any row of its table.
-/
set_option linter.unusedSectionVars false
namespace PyFlowGo
open Spec

/-- With a rheology that does not read it the strain rate the loop starts with does not matter. -/
theorem loop_strain (g : Integrator ℝ) (hl : StrainIndependent g.models.lava) (n : Nat) (w w' : World ℝ) (y : ℝ) (hf : w.finished = false)
    (h : runLoop g n w = some (.ok (), w')) : runLoop g n { w with st := { w.st with strain := y } } = some (.ok (), w') := by
  cases n with
  | zero =>
    unfold runLoop at h
    rw [if_neg (by rw [hf]; simp)] at h
    cases h
  | succ n =>
    have hs : singleStep g { w with st := { w.st with strain := y } } = singleStep g w ∨ ∃ e, singleStep g w = (.error e, w) := by
      cases hv : g.models.lava.meanVelocity w.terrain w.st with
      | error e => exact .inr ⟨e, step_error g w e hv⟩
      | ok p =>
        refine .inl ?_
        obtain ⟨v, x⟩ := p
        have e1 : meanVelocityM g.models.lava w = (.ok v, { w with st := { w.st with strain := x } }) := by
          unfold meanVelocityM
          rw [hv]
        have e2 : meanVelocityM g.models.lava { w with st := { w.st with strain := y } } = (.ok v, { w with st := { w.st with strain := x } }) := by
          unfold meanVelocityM
          rw [meanVelocity_strain _ hl, hv]
        unfold singleStep
        rw [PyM.bind_of_ok e1, PyM.bind_of_ok e2]
    unfold runLoop at h ⊢
    rw [if_neg (by rw [hf]; simp)] at h
    rw [if_neg (by show ¬ w.finished = true; rw [hf]; simp)]
    rcases hs with hs | ⟨e, hs⟩
    · rw [hs]; exact h
    · rw [hs] at h; cases h

/-- The rest of a run, from one of its accepted steps on. -/
theorem loop_rest (g : Integrator ℝ) (w' : World ℝ) (i : Nat) : ∀ (n : Nat) (ws : Nat → World ℝ), AcceptedRun g i ws →
    runLoop g n (ws 0) = some (.ok (), w') → ∃ m, m ≤ n ∧ runLoop g m (ws i) = some (.ok (), w') := by
  induction i with
  | zero => exact fun n ws _ h => ⟨n, le_rfl, h⟩
  | succ i ih =>
    intro n ws hacc h
    obtain ⟨m, hm, h'⟩ := ih n ws (fun j hj => hacc j (by omega)) h
    obtain ⟨hf, hs, _⟩ := hacc i (by omega)
    cases m with
    | zero =>
      unfold runLoop at h'
      rw [if_neg (by rw [hf]; simp)] at h'
      cases h'
    | succ m =>
      unfold runLoop at h'
      rw [if_neg (by rw [hf]; simp), hs] at h'
      exact ⟨m, by omega, h'⟩

theorem atPosition_of {r : Row (Cell ℝ)} {y x : ℝ} (h : r.get? "position" = some (.num y)) (hne : y ≠ x) : r.atPosition (.num x) = false := by
  unfold Row.atPosition
  rw [h]
  show (Cell.num x == Cell.num y) = false
  rw [beq_eq_false_iff_ne]
  intro e
  injection e with e
  exact hne e.symm

theorem ventRate_exists (g : Integrator ℝ) (w : World ℝ) (hit : w.iteration = 0) : ∃ E, VentRate g w E := by
  unfold VentRate
  cases hv : g.models.lava.meanVelocity w.terrain w.st with
  | error e => exact ⟨0, fun v x hx => by cases hx⟩
  | ok p => exact ⟨p.1 * w.terrain.width * w.terrain.depth, fun v x hx => by injection hx with hx; rw [if_pos hit, hx]⟩

/-- Every complete row shows the depth of the channel. -/
theorem loop_depth (g : Integrator ℝ) (hdx : 0 < g.dx) (n : Nat) (w w' : World ℝ) (hw : w.log = []) (hit : w.iteration = 0)
    (h : runLoop g n w = some (.ok (), w')) (x T D : ℝ) (hT : loggedNum w'.log x "core_temperature" = some T)
    (hD : loggedNum w'.log x "channel_depth" = some D) : w.terrain.depth = D ∧ D ≠ 0 ∧
      ∀ W, g.massConservation = false → loggedNum w'.log x "channel_width" = some W → W ≠ 0 := by
  obtain ⟨E, hE⟩ := ventRate_exists g w hit
  obtain ⟨k, ws, d, R⟩ := run_table g hdx n w w' hw h E hE
  obtain ⟨i, hi, hx⟩ := R.shown _ (step_not_part g _ (by simp)) x T hT
  have := (R.row i hi).channel_depth
  rw [← hx, hD] at this
  have eD := (Option.some.inj this).symm
  refine ⟨eD, by rw [← eD]; exact (R.made i hi).depth, fun W hm hW => ?_⟩
  have hw' := (R.row i hi).channel_width
  rw [← hx, hW] at hw'
  rw [Option.some.inj hw', (R.made i hi).volume hm]
  have hE0 : E ≠ 0 := fun e => (R.made i hi).denominator (by rw [e]; ring)
  exact div_ne_zero hE0 (mul_ne_zero (R.made i hi).moving.ne' (R.made i hi).depth)

/-- **C127**, the loop. A loop (fresh log, first iteration, positive step, no mass conservation, a rheology that does not read the strain rate, a crust that does
    not read the clock) came to its end and shows at `x` the core temperature `T`, the crystal fraction `φ` and the width `W`. Then from a world that lies at
    `x`, with that temperature and fraction and a channel of that width, otherwise on the same terrain and with the same models (another initial temperature
    and crystal content apart) the loop also comes to its end; the first log is some rows upflow of `x` followed by the second log, and the lava stops at the
    same place, temperature and crystal fraction. -/
theorem C127_loop (g : Integrator ℝ) (hdx : 0 < g.dx) (hmass : g.massConservation = false) (hl : StrainIndependent g.models.lava)
    (hclock : ¬ g.models.crust.readsClock) (n : Nat) (w w' : World ℝ) (hw : w.log = []) (hit : w.iteration = 0) (h : runLoop g n w = some (.ok (), w'))
    (x T φ W : ℝ) (hT : loggedNum w'.log x "core_temperature" = some T) (hφ : loggedNum w'.log x "crystal_fraction" = some φ)
    (hW : loggedNum w'.log x "channel_width" = some W)
    (T0 : ℝ) (c : CrystModel ℝ) (hc : SameGrowth g.models.cryst c) (rate0 : ℝ) (u : World ℝ) (hlog : u.log = []) (hu : u.iteration = 0) (hfin : u.finished = false)
    (hter : u.terrain = { w.terrain with width := W, effusionRateInit := rate0 }) (hpos : u.st.pos = x) (htemp : u.st.temp = T) (hcrys : u.st.crystal = φ) :
    ∃ u', runLoop (g.erupted T0 c) n u = some (.ok (), u') ∧
      (∃ upflow, w'.log = upflow ++ u'.log ∧ ∀ r ∈ upflow, ∃ y < x, r.get? "position" = some (.num y)) ∧
      u'.st.pos = w'.st.pos ∧ u'.st.temp = w'.st.temp ∧ u'.st.crystal = w'.st.crystal := by
  obtain ⟨E, hE⟩ := ventRate_exists g w hit
  obtain ⟨k, ws, d, R⟩ := run_table g hdx n w w' hw h E hE
  obtain ⟨i, hi, hx⟩ := R.shown _ (step_not_part g _ (by simp)) x T hT
  have hr := R.row i hi
  have eT : (ws i).st.temp = T := by have := hr.core_temperature; rw [← hx, hT] at this; exact (Option.some.inj this).symm
  have eφ : (ws i).st.crystal = φ := by have := hr.crystal_fraction; rw [← hx, hφ] at this; exact (Option.some.inj this).symm
  have eW : (d i).width = W := by have := hr.channel_width; rw [← hx, hW] at this; exact (Option.some.inj this).symm
  have hacc : AcceptedRun g i ws := fun j hj => R.accepted j (by omega)
  obtain ⟨m, hm, hrest⟩ := loop_rest g w' i n ws hacc (by rw [R.start]; exact h)
  obtain ⟨row, hrow, hrows⟩ := acceptedRun_rows g hdx i ws hacc (by rw [R.start]; exact hw)
  have hxi : x = w.st.pos + i * g.dx := by rw [hx, R.pos i hi.le]
  rw [R.start] at hrow
  have hup : ∀ r ∈ (ws i).log, ∃ y < x, r.get? "position" = some (.num y) := by
    intro r hr
    rw [hrows i le_rfl] at hr
    obtain ⟨j, hj, rfl⟩ := List.mem_map.mp hr
    have hj := List.mem_range.mp hj
    refine ⟨_, ?_, (hrow j hj).1⟩
    rw [hxi]
    have : (j : ℝ) < i := by exact_mod_cast hj
    nlinarith
  have hiti : (ws i).iteration = i := by
    have := (C06_position_time g i ws hacc).2.1
    rw [R.start, hit, Nat.zero_add] at this
    exact this
  let K : Earlier := { rows := (ws i).log, width := w.terrain.width, init := w.terrain.effusionRateInit, flux := w.fluxRate, steps := i,
                       clock := (ws i).st.time - u.st.time }
  have hK : Restartable g c K := ⟨hc, hmass, fun h => absurd h hclock⟩
  let B : World ℝ := { u with st := { u.st with strain := (ws i).st.strain } }
  have haway : ∀ r ∈ K.rows, ∀ j : ℕ, r.atPosition (.num (B.st.pos + j * g.dx)) = false := by
    intro r hr j
    obtain ⟨y, hy, hp⟩ := hup r hr
    refine atPosition_of hp ?_
    show y ≠ u.st.pos + j * g.dx
    rw [hpos]
    have : (0 : ℝ) ≤ j * g.dx := by positivity
    linarith
  have h0 : ∀ r ∈ K.rows, r.atPosition (.num B.st.pos) = false := fun r hr => by have := haway r hr 0; simpa using this
  have hA : ({ B with effusionRate := (ws i).effusionRate } : World ℝ).later K = ws i := by
    rw [later_all (w := { B with effusionRate := (ws i).effusionRate }) h0]
    have e1 := R.terrain i hi.le
    have e2 := R.fluxRate i hi.le
    have e3 := (R.accepted i hi).1
    show ({ st := { crystal := u.st.crystal, temp := u.st.temp, pos := u.st.pos, time := u.st.time + ((ws i).st.time - u.st.time), strain := (ws i).st.strain }
            terrain := { u.terrain with width := w.terrain.width, effusionRateInit := w.terrain.effusionRateInit }
            log := (ws i).log ++ u.log
            effusionRate := (ws i).effusionRate
            fluxRate := w.fluxRate
            iteration := u.iteration + i
            finished := u.finished } : World ℝ) = ws i
    rw [hlog, hu, hfin, hter, htemp, hcrys, hpos, List.append_nil, Nat.zero_add, add_sub_cancel]
    cases hwi : ws i with
    | mk st ter lg ef fl it fi =>
    rw [hwi] at e1 e2 e3 eT eφ hiti hx
    dsimp only at e1 e2 e3 eT eφ hiti hx
    subst e1 e2 e3 eT eφ hiti hx
    rfl
  have hrate : B.finished = false → ∀ v y, (g.erupted T0 c).models.lava.meanVelocity B.terrain B.st = .ok (v, y) → ¬ leB v 0.0 = true →
      B.stepEffusion v = E ∧ (({ B with effusionRate := (ws i).effusionRate } : World ℝ).later K).stepEffusion v = E := by
    intro _ v y hv _
    obtain ⟨y', hy'⟩ := (R.made i hi).velocity
    have hvv : v = (d i).v := by
      have := velocity_later K g.models.lava T0 { B with effusionRate := (ws i).effusionRate }
      rw [hA, R.terrain i hi.le, hy'] at this
      have this := this.trans hv
      injection this with this
      injection this with this _
      exact this.symm
    have hvp := (R.made i hi).moving
    have hd := (R.made i hi).depth
    constructor
    · unfold World.stepEffusion
      rw [if_pos (by show (u.iteration == 0) = true; rw [hu]; rfl)]
      show v * u.terrain.width * u.terrain.depth = E
      rw [hter, hvv]
      show (d i).v * W * w.terrain.depth = E
      rw [← eW, (R.made i hi).volume hmass]
      field_simp
    · rw [hA]
      obtain ⟨F⟩ := acceptedFacts (R.accepted i hi)
      have e := F.eff_eq
      have hv2 := F.hv
      rw [R.terrain i hi.le, hy'] at hv2
      injection hv2 with hv2
      injection hv2 with hv2 _
      rw [hvv, hv2, ← e]
      exact R.effusion i hi
  obtain ⟨u', h1, h2, h3⟩ := resume_loop hK T0 E m (ws i).effusionRate B w' hrate haway (by rw [hA]; exact hrest)
  have h1' := C05_budget_irrelevant _ m n hm B _ h1
  have h4 := loop_strain (g.erupted T0 c) hl n B u' u.st.strain hfin h1'
  refine ⟨u', h4, ⟨(ws i).log, h2, hup⟩, ?_, ?_, ?_⟩ <;> rw [h3]

/-- The loop of a run that ended normally. -/
theorem run_started {grid : List ℝ} {fuel : Nat} {env : Env ℝ} {jsonFile folder : String} {p q : Proc ℝ} {d : Json ℝ} {pr : Prepared ℝ}
    (hd : lookup p.json (env.canon jsonFile) = some d) (hp : prepare env d [] = .ok pr) (hrun : runOn grid fuel env jsonFile folder (newRunner p) = some (.ok (), q)) :
    ∃ w1 w, w1.log = [] ∧ w1.iteration = 0 ∧ ({ w1.terrain with depth := 0 } : Terrain ℝ) = { pr.world.terrain with depth := 0 } ∧
      runLoop pr.integrator fuel w1 = some (.ok (), w) ∧ q.log = w.log := by
  obtain ⟨_, _, _, hlog, hit, hfin, _, _, _, _⟩ := prepared_facts hp
  obtain ⟨w, hsim, hq⟩ := run_log (p := newRunner p) hd hp hrun
  obtain ⟨w1, hi1, hloop⟩ : ∃ w1, initEffusionRateOn grid pr.integrator.models.lava pr.world = (.ok (), w1) ∧ runLoop pr.integrator fuel w1 = some (.ok (), w) := by
    unfold simulateOn at hsim
    cases hi : initEffusionRateOn grid pr.integrator.models.lava pr.world with
    | mk r w1 =>
    rw [hi] at hsim
    cases r with
    | error e => cases hsim
    | ok u => exact ⟨w1, rfl, hsim⟩
  have keep : w1.log = [] ∧ w1.iteration = 0 ∧ { w1.terrain with depth := 0 } = { pr.world.terrain with depth := 0 } := by
    let P : World ℝ → Prop := fun v => v.log = [] ∧ v.iteration = 0 ∧ { v.terrain with depth := 0 } = { pr.world.terrain with depth := 0 }
    have hP : P pr.world := ⟨hlog, hit, rfl⟩
    unfold initEffusionRateOn at hi1
    rw [PyM.bind_of_ok (PyM.get_apply _)] at hi1
    split at hi1
    · cases hi1; exact hP
    · exact depthSearch_keeps _ grid P (fun v _ _ _ _ hv => hv) pr.world _ w1 hP hi1
  obtain ⟨k1, k2, k3⟩ := keep
  exact ⟨w1, w, k1, k2, k3, hloop, hq⟩

/-- **C127**. A run (positive step, no mass conservation, a rheology that does not read the strain rate, a crust that does not read the clock) ended normally and
    its log shows at `x` the core temperature `T`, the crystal fraction `φ`, the width `W` and the depth `D`. A second configuration, prepared, begins there.
    Then its run ends normally too, and the first log is some rows upflow of `x` followed by the log of the second run. -/
theorem C127_run (grid : List ℝ) (fuel : Nat) (env env' : Env ℝ) (jsonFile jsonFile' folder folder' : String) (p q p' : Proc ℝ) (d d' : Json ℝ) (pr pr' : Prepared ℝ)
    (hd : lookup p.json (env.canon jsonFile) = some d) (hd' : lookup p'.json (env'.canon jsonFile') = some d')
    (hp : prepare env d [] = .ok pr) (hp' : prepare env' d' [] = .ok pr')
    (hdx : 0 < pr.integrator.dx) (hmass : pr.integrator.massConservation = false) (hl : StrainIndependent pr.integrator.models.lava)
    (hclock : ¬ pr.integrator.models.crust.readsClock) (hrun : runOn grid fuel env jsonFile folder (newRunner p) = some (.ok (), q))
    (x T φ W D : ℝ) (hT : loggedNum q.log x "core_temperature" = some T) (hφ : loggedNum q.log x "crystal_fraction" = some φ)
    (hW : loggedNum q.log x "channel_width" = some W) (hD : loggedNum q.log x "channel_depth" = some D) (hb : BeginsAt pr pr' x T φ W D) :
    ∃ q', runOn grid fuel env' jsonFile' folder' (newRunner p') = some (.ok (), q') ∧
      ∃ upflow, q.log = upflow ++ q'.log ∧ ∀ r ∈ upflow, ∃ y < x, r.get? "position" = some (.num y) := by
  obtain ⟨_, _, _, hlog, hit, hfin, _, _, _, _⟩ := prepared_facts hp
  obtain ⟨_, _, _, hlog', hit', hfin', _, _, _, _⟩ := prepared_facts hp'
  obtain ⟨w1, w, k1, k2, k3, hloop, hq⟩ := run_started hd hp hrun
  rw [hq] at hT hφ hW hD
  obtain ⟨eD, _⟩ := loop_depth _ hdx fuel w1 w k1 k2 hloop x T D hT hD
  obtain ⟨T0, c, hm, hc⟩ := hb.models
  have hg : pr'.integrator = pr.integrator.erupted T0 c := by
    have e1 := hb.step
    have e2 := hb.mass
    cases hi : pr'.integrator with
    | mk m dx mc =>
    rw [hi] at hm e1 e2
    dsimp only at hm e1 e2
    subst hm e1 e2
    rfl
  have ht : pr'.world.terrain = { w1.terrain with width := W, effusionRateInit := 0 } := by
    rw [hb.terrain, ← eD]
    have := congrArg (fun t : Terrain ℝ => ({ t with width := W, depth := w1.terrain.depth, effusionRateInit := 0 } : Terrain ℝ)) k3
    exact this.symm
  obtain ⟨u', h1, h2, _⟩ := C127_loop pr.integrator hdx hmass hl hclock fuel w1 w k1 k2 hloop x T φ W hT hφ hW T0 c hc 0 pr'.world hlog' hit' hfin' ht
    hb.position hb.temperature hb.crystals
  have hsim' : simulateOn grid fuel pr'.integrator pr'.world = some (.ok (), u') := by
    unfold simulateOn initEffusionRateOn
    have e0 : eqB pr'.world.terrain.effusionRateInit (0.0 : ℝ) = true := by rw [hb.terrain]; norm_num [eqB_real]
    rw [PyM.bind_of_ok (PyM.get_apply _), if_pos e0, hg]
    exact h1
  obtain ⟨q', h3, h4, _⟩ := C04_run_writes (fun c => beq_self_eq_true c) grid fuel env' jsonFile' folder' p' d' pr' u' hd' hp' hsim'
  refine ⟨q', h3, ?_⟩
  rw [hq, h4]
  exact h2

end PyFlowGo
