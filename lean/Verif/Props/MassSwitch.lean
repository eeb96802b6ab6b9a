import Verif.Props.RelevantText
import Verif.Props.DepthSearch
import Verif.Props.Euler
/-
  C95: what the switch `mass_conservation` does and does not do.
-/
set_option linter.unusedSectionVars false
namespace PyFlowGo
open Spec

/-- The same integrator with the switch set to `b`. -/
def Integrator.withMass {α : Type} (g : Integrator α) (b : Bool) : Integrator α := { g with massConservation := b }

/-- With the mass flux of the effusion rate both ways of computing the width agree. -/
theorem channelWidth_mass (E rho v d : ℝ) (fr : Option ℝ) (hr : rho ≠ 0) :
    channelWidth true E (some (E * rho)) v d rho = channelWidth false E fr v d rho := by
  unfold channelWidth
  simp only [if_true, Bool.false_eq_true, if_false]
  by_cases h : v * d = 0
  · rw [div_real, if_pos h, div_real, if_pos h]; rfl
  · rw [div_of_ne h, ok_bind, div_of_ne hr, div_of_ne h]
    congr 1
    field_simp

/-- One step is the same with and without mass conservation when the mass flux is the effusion rate times the density. -/
theorem singleStep_mass (g : Integrator ℝ) (w : World ℝ) (rho : ℝ) (hr : rho ≠ 0) (hrho : g.models.lava.density w.st = rho)
    (hf : ∀ v x, g.models.lava.meanVelocity w.terrain w.st = .ok (v, x) → w.fluxRate = some (w.stepEffusion v * rho)) :
    singleStep (g.withMass true) w = singleStep (g.withMass false) w := by
  unfold singleStep
  have hm : ∀ b, (g.withMass b).models = g.models := fun _ => rfl
  simp only [hm]
  cases hv : g.models.lava.meanVelocity w.terrain w.st with
  | error e =>
    have h1 : meanVelocityM g.models.lava w = (.error e, w) := by unfold meanVelocityM; rw [hv]
    rw [PyM.bind_of_error h1, PyM.bind_of_error h1]
  | ok q =>
    obtain ⟨v, x⟩ := q
    have h1 : meanVelocityM g.models.lava w = (.ok v, { w with st := { w.st with strain := x } }) := by
      unfold meanVelocityM; rw [hv]
    rw [PyM.bind_of_ok h1, PyM.bind_of_ok h1]
    split
    · rfl
    · have hc : stepCompute (g.withMass true) v { w with st := { w.st with strain := x } } =
          stepCompute (g.withMass false) v { w with st := { w.st with strain := x } } := by
        have hs : (if w.iteration == 0 then
            ({ w with st := { w.st with strain := x },
                      effusionRate := v * w.terrain.width * w.terrain.depth } : World ℝ)
            else { w with st := { w.st with strain := x } }) =
            { w with st := { w.st with strain := x }, effusionRate := w.stepEffusion v } := by
          unfold World.stepEffusion; split <;> rfl
        unfold stepCompute setEffusionRate
        rw [PyM.bind_of_ok (PyM.modify_apply _ _), PyM.bind_of_ok (PyM.modify_apply _ _)]
        dsimp only
        rw [hs, PyM.bind_of_ok (PyM.get_apply _), PyM.bind_of_ok (PyM.get_apply _)]
        dsimp only
        have e1 : channelWidth (g.withMass true).massConservation (w.stepEffusion v) w.fluxRate v w.terrain.depth
              ((g.withMass true).models.lava.density { w.st with strain := x }) =
            channelWidth (g.withMass false).massConservation (w.stepEffusion v) w.fluxRate v w.terrain.depth
              ((g.withMass false).models.lava.density { w.st with strain := x }) := by
          rw [hm, hm, density_strain, hrho]
          conv_lhs => rw [hf v x hv]
          exact channelWidth_mass _ _ _ _ _ hr
        rw [e1]
        rfl
      cases hq : stepCompute (g.withMass false) v { w with st := { w.st with strain := x } } with
      | mk r w1 =>
        cases r with
        | error e => rw [PyM.bind_of_error (hc.trans hq), PyM.bind_of_error hq]
        | ok d =>
          rw [PyM.bind_of_ok (hc.trans hq), PyM.bind_of_ok hq]
          rfl

/-- The loop is the same with and without mass conservation. -/
theorem runLoop_mass (g : Integrator ℝ) (rho : ℝ) (hr : rho ≠ 0) (hrho : ∀ s, g.models.lava.density s = rho) :
    ∀ (n : Nat) (w : World ℝ),
      (∀ v x, g.models.lava.meanVelocity w.terrain w.st = .ok (v, x) → w.fluxRate = some (w.stepEffusion v * rho)) →
      runLoop (g.withMass true) n w = runLoop (g.withMass false) n w := by
  intro n
  induction n with
  | zero => intro w _; rfl
  | succ n ih =>
    intro w hf
    unfold runLoop
    split
    · rfl
    rw [singleStep_mass g w rho hr (hrho _) hf]
    cases hs : singleStep (g.withMass false) w with
    | mk r w1 =>
      cases r with
      | error e => rfl
      | ok _ =>
        dsimp only
        cases singleStep_ok hs with
        | still v x hv hle hw => subst hw; cases n <;> rfl
        | noGrowth v x hv hle d w2 es y facts hphi hw => subst hw; cases n <;> rfl
        | accepted v x hv hle d w2 es y facts hphi visc tc f v2 y2 tho0 thob hvisc htc hv2 hf' ht0 htb dt strain hdt hst
            s' hs' stop hstop hw =>
          apply ih
          intro v' x' _
          have hv0 : g.models.lava.meanVelocity w.terrain w.st = .ok (v, x) := hv
          subst hw
          have h1 : ∀ W : World ℝ, W.iteration ≠ 0 → W.stepEffusion v' = W.effusionRate := by
            intro W hW
            unfold World.stepEffusion
            rw [if_neg (by simpa using hW)]
          rw [h1 _ (by show w.iteration + 1 ≠ 0; omega)]
          exact hf v x hv0

/-- The two ways of running agree from the depth search on. -/
theorem simulate_mass (grid : List ℝ) (hgrid : grid ≠ []) (fuel : Nat) (g : Integrator ℝ) (w : World ℝ) (rho : ℝ) (hr : rho ≠ 0)
    (hl : StrainIndependent g.models.lava) (hrho : ∀ s, g.models.lava.density s = rho) (hinit : w.terrain.effusionRateInit ≠ 0)
    (hit : w.iteration = 0) :
    simulateOn grid fuel (g.withMass true) w = simulateOn grid fuel (g.withMass false) w := by
  unfold simulateOn
  have hm : ∀ b, (g.withMass b).models = g.models := fun _ => rfl
  rw [hm, hm]
  cases hi : initEffusionRateOn grid g.models.lava w with
  | mk r w1 =>
    cases r with
    | error e => rfl
    | ok _ =>
      dsimp only
      unfold initEffusionRateOn at hi
      rw [PyM.bind_of_ok (PyM.get_apply _), if_neg (by
        rw [eqB_real]; intro e; apply hinit; rw [e]; norm_num)] at hi
      obtain ⟨k, xs, vs, hk, h0, h1, _, _, h4⟩ := depthSearch_ok _ _ _ _ hi hgrid
      apply runLoop_mass g rho hr hrho
      intro v x hv
      subst h4
      have hv' : g.models.lava.meanVelocity { w.terrain with depth := grid.getD k 0 } { w.st with strain := xs k } = .ok (v, x) := by
        have e := meanVelocity_strain g.models.lava hl { w.terrain with depth := grid.getD k 0 } { w.st with strain := xs k } (xs (k + 1))
        rw [← e]
        exact hv
      rw [h1 k le_rfl] at hv'
      cases hv'
      unfold World.stepEffusion
      rw [if_pos (by simpa using hit)]
      rw [hrho]

/-- The density of a lava with a constant vesicle fraction. -/
theorem constant_density (l : Lava ℝ) (v : ℝ) (h : l.ves = .constant v) (s : FlowState ℝ) : l.density s = l.densityDre * (1 - v) := by
  unfold Lava.density Lava.vesicleFraction
  rw [h]
  show _ * ((1.0 : ℝ) - v) = _
  norm_num

/-- **C95**. With a constant vesicle fraction, a rheology that does not read the strain rate and an effusion rate given, the switch
    `mass_conservation` has no effect: two configurations that differ in it (and in unused entries) give the same outcome, the same
    log and the same result file, or both raise before anything is changed. -/
theorem C95_switch_without_effect (grid : List ℝ) (hgrid : grid ≠ []) (fuel : Nat) (env : Env ℝ) (jsonFile folder : String) (p p' : Proc ℝ)
    (d d' : Json ℝ) (hd : lookup p.json (env.canon jsonFile) = some d) (hd' : lookup p'.json (env.canon jsonFile) = some d')
    (hlog : p'.log = p.log) (hres : p'.results = p.results)
    (c : Choice) (hc : Selects d c) (h : SameEntries env c d d')
    (hves : c.ves = "constant") (hrel : c.rel ≠ "bll" ∧ c.rel ≠ "mader") (hbub : c.bub ≠ "mader")
    (hrate : ∀ v, TopEntry d "effusion_rate_init" v → v.toFloat env ≠ .ok 0)
    (hdre : ∀ x, NumberAt env d "lava_state" "density_dre" x → x ≠ 0)
    (hvf : ∀ x, NumberAt env d "lava_state" "vesicle_fraction" x → x ≠ 1) :
    (∃ e e', runOn grid fuel env jsonFile folder p = some (.error e, p) ∧ runOn grid fuel env jsonFile folder p' = some (.error e', p')) ∨
    (runOn grid fuel env jsonFile folder p = none ∧ runOn grid fuel env jsonFile folder p' = none) ∨
    ∃ r log results, runOn grid fuel env jsonFile folder p = some (r, { p with log := log, results := results }) ∧
      runOn grid fuel env jsonFile folder p' = some (r, { p' with log := log, results := results }) := by
  unfold runOn
  rw [hd, hd', hlog, hres]
  dsimp only
  cases hp : prepare env d p.log with
  | error e =>
    cases hp' : prepare env d' p.log with
    | error e' => exact .inl ⟨e, e', rfl, rfl⟩
    | ok pr =>
      obtain ⟨raw, _, h2⟩ := same_prepare (sameEntries_symm h) (same_selects (sameModels_of h) hc) p.log pr hp'
      rw [hp] at h2
      cases h2
  | ok pr =>
    obtain ⟨raw, _, h2⟩ := same_prepare h hc p.log pr hp
    rw [h2]
    dsimp only
    refine .inr ?_
    obtain ⟨hl, hrho, hinit, hit⟩ : StrainIndependent pr.integrator.models.lava ∧
        (∃ rho, rho ≠ 0 ∧ ∀ s, pr.integrator.models.lava.density s = rho) ∧ pr.world.terrain.effusionRateInit ≠ 0 ∧ pr.world.iteration = 0 := by
      rw [C55_run_starts_from_the_configuration] at hp
      obtain ⟨_, ⟨t0, path, rows, ⟨⟨v, g1, g2⟩, _⟩, _, _, _, g3⟩, hm, _, _, _, _, _, _, _, _, _, _, _, _, hit, _⟩ := hp
      obtain ⟨c', hc', hm⟩ := (C55_models_come_from_the_configuration _ _ _).mp hm
      have := selects_unique hc hc'
      subst this
      obtain ⟨_, _, ⟨_, lves, lrel, lbub, _, _, _, _, ldre, _⟩, _⟩ := hm
      refine ⟨?_, ?_, ?_, hit⟩
      · apply C22_which_models_are_strain_independent
        · intro a1 a2 a3 a4 a5 a6 a7 a8 e
          rw [e] at lrel
          generalize c.rel = s at *
          unfold RelFrom at lrel
          split at lrel <;> simp_all
        · intro a e
          rw [e] at lrel
          generalize c.rel = s at *
          unfold RelFrom at lrel
          split at lrel <;> simp_all
        · intro a1 a2 a3 a4 a5 e
          rw [e] at lbub
          generalize c.bub = s at *
          unfold BubFrom at lbub
          split at lbub <;> simp_all
      · rw [hves] at lves
        obtain ⟨f, lf, lves⟩ := lves
        exact ⟨_, mul_ne_zero (hdre _ ldre) (sub_ne_zero.mpr (Ne.symm (hvf _ lf))), constant_density _ f lves⟩
      · intro e0
        refine hrate v g1 ?_
        obtain ⟨sp, g4⟩ := readSlope_keeps g3
        rw [g4] at e0
        rw [g2]
        exact congrArg _ e0
    obtain ⟨rho, hr, hrho⟩ := hrho
    have hsim : simulateOn grid fuel (pr.withMass (massConservationOf raw)).integrator (pr.withMass (massConservationOf raw)).world =
        simulateOn grid fuel pr.integrator pr.world := by
      have key := simulate_mass grid hgrid fuel pr.integrator pr.world rho hr hl hrho hinit hit
      have e1 : ∀ b, simulateOn grid fuel (pr.integrator.withMass b) pr.world = simulateOn grid fuel (pr.integrator.withMass false) pr.world := by
        intro b; cases b
        · rfl
        · exact key
      show simulateOn grid fuel (pr.integrator.withMass (massConservationOf raw)) pr.world = _
      rw [e1, ← e1 pr.integrator.massConservation]
      rfl
    rw [hsim]
    cases simulateOn grid fuel pr.integrator pr.world with
    | none => exact .inl ⟨rfl, rfl⟩
    | some o =>
      obtain ⟨r, w⟩ := o
      refine .inr ?_
      cases r with
      | error e => exact ⟨_, w.log, p.results, rfl, by rw [← hres]⟩
      | ok _ =>
        dsimp only
        cases writeValues w.log with
        | error e => exact ⟨_, w.log, p.results, rfl, by rw [← hres]⟩
        | ok t =>
          cases t with
          | none => exact ⟨_, w.log, p.results, rfl, by rw [← hres]⟩
          | some t => exact ⟨_, w.log, _, rfl, rfl⟩

/-- **C95**. What the switch does when it is on (rheology not reading the strain rate, effusion rate given): every complete row of the
    run has width * velocity * depth * density equal to `E` times the density at the vent, `E` being the number in the column
    effusion_rate; so the volume flux of a row is not `E` but `E` times the ratio of the densities. The heat, however, is charged to
    `E` times the density of the row, not to the mass flux: latent heat of the crystals grown in the conserved mass flux is
    the heat lost times the density at the vent over that of the row. -/
theorem C95_mass_flux_of_a_run (grid : List ℝ) (hgrid : grid ≠ []) (g : Integrator ℝ) (hm : g.massConservation = true) (hdx : 0 < g.dx)
    (hl : StrainIndependent g.models.lava) (n : Nat) (w0 w' : World ℝ) (hlog : w0.log = []) (hit : w0.iteration = 0)
    (hinit : w0.terrain.effusionRateInit ≠ 0) (h : simulateOn grid n g w0 = some (.ok (), w')) :
    ∃ (k : Nat) (s : Nat → FlowState ℝ) (depth E : ℝ), (w'.log.length = k ∨ w'.log.length = k + 1) ∧ depth ∈ grid ∧
      (s 0).crystal = w0.st.crystal ∧ (s 0).temp = w0.st.temp ∧ (s 0).pos = w0.st.pos ∧
      w'.st.crystal = (s k).crystal ∧ w'.st.pos = (s k).pos ∧
      ∀ i, i < k → (s (i + 1)).pos = (s i).pos + g.dx ∧ ∃ width v rho0 rho heat, loggedNum w'.log (s i).pos "channel_width" = some width ∧
        loggedNum w'.log (s i).pos "mean_velocity" = some v ∧ loggedNum w'.log (s i).pos "channel_depth" = some depth ∧
        loggedNum w'.log (s 0).pos "density" = some rho0 ∧ loggedNum w'.log (s i).pos "density" = some rho ∧
        loggedNum w'.log (s i).pos "heat_budget" = some heat ∧
        cellAt w'.log (.num (s i).pos) "effusion_rate" = some (.text E) ∧
        loggedNum w'.log (s i).pos "crystal_fraction" = some (s i).crystal ∧
        width * v * depth * rho = E * rho0 ∧ width * v * depth = E * (rho0 / rho) ∧
        (E * rho0) * g.models.lava.latentHeat * ((s (i + 1)).crystal - (s i).crystal) = heat * g.dx * (rho0 / rho) := by
  unfold simulateOn at h
  cases hi : initEffusionRateOn grid g.models.lava w0 with
  | mk r w1 =>
    rw [hi] at h
    cases r with
    | error e => simp at h
    | ok _ =>
      dsimp only at h
      unfold initEffusionRateOn at hi
      rw [PyM.bind_of_ok (PyM.get_apply _), if_neg (by
        rw [eqB_real]; intro e; apply hinit; rw [e]; norm_num)] at hi
      obtain ⟨j, xs, vs, hj, h0, h1, _, _, h4⟩ := depthSearch_ok _ _ _ _ hi hgrid
      have hw1log : w1.log = [] := by rw [h4]; exact hlog
      have hw1it : w1.iteration = 0 := by rw [h4]; exact hit
      have hw1fl : w1.fluxRate = some (vs j * w0.terrain.width * grid.getD j 0 * g.models.lava.density w0.st) := by rw [h4]
      have hw1d : w1.terrain.depth = grid.getD j 0 := by rw [h4]
      have hw1w : w1.terrain.width = w0.terrain.width := by rw [h4]
      have hw1s : w1.st = { w0.st with strain := xs (j + 1) } := by rw [h4]
      have hv1 : ∀ v x, g.models.lava.meanVelocity w1.terrain w1.st = .ok (v, x) → v = vs j := by
        intro v x hv
        rw [h4] at hv
        dsimp only at hv
        have e := meanVelocity_strain g.models.lava hl { w0.terrain with depth := grid.getD j 0 } { w0.st with strain := xs j } (xs (j + 1))
        dsimp only at e
        rw [hv, h1 j le_rfl] at e
        cases e
        rfl
      obtain ⟨k, s, d, E, hk, hs0, hsk, hE, hrows⟩ := C70_euler_table g hdx n w1 w' hw1log h
      have hden : g.models.lava.density (s 0) = g.models.lava.density w0.st := by
        rw [hs0, hw1s, density_strain]
      refine ⟨k, s, grid.getD j 0, E, hk, ?_, ?_, ?_, ?_, ?_, ?_, ?_⟩
      · simp [List.getD, List.getElem?_eq_getElem hj]
      · rw [hs0, hw1s]
      · rw [hs0, hw1s]
      · rw [hs0, hw1s]
      · rw [hsk]
      · rw [hsk]
      · intro i hik
        obtain ⟨m0, sh0, _, _⟩ := hrows 0 (by omega)
        obtain ⟨mi, shi, ei, _⟩ := hrows i hik
        have hEv : E = vs j * w0.terrain.width * grid.getD j 0 := by
          have := hE (by omega)
          rw [if_pos hw1it, hw1w, hw1d] at this
          obtain ⟨x, hx⟩ := m0.velocity
          rw [hs0] at hx
          rw [this, hv1 _ _ hx]
        obtain ⟨flux, hf, hw⟩ := mi.mass hm
        rw [hw1fl] at hf
        have hflux : flux = E * g.models.lava.density (s 0) := by
          rw [hden, hEv]; exact (Option.some.inj hf).symm
        have hne := mi.denominator
        have hEne : E ≠ 0 := fun e => hne (by rw [e]; ring)
        have hrne : g.models.lava.density (s i) ≠ 0 := fun e => hne (by rw [e]; ring)
        have hLne : g.models.lava.latentHeat ≠ 0 := fun e => hne (by rw [e]; ring)
        have hv := mi.moving.ne'
        have hd := mi.depth
        rw [hw1d] at hd hw
        refine ⟨ei.pos, (d i).width, (d i).v, _, _, (d i).heat, shi.channel_width, shi.mean_velocity, by rw [← hw1d]; exact shi.channel_depth,
          sh0.density, shi.density, shi.heat_budget, shi.effusion_rate, shi.crystal_fraction, ?_, ?_, ?_⟩
        · rw [hw, hflux]; field_simp
        · rw [hw, hflux]; field_simp
        · rw [ei.crystal]
          unfold crystalGradient
          field_simp
          ring

/-! ### Concrete cases -/

/-- The still example with the switch on: the same complete run. -/
theorem still_mass_run (n : Nat) (hn1 : 1 ≤ n) (hn3 : n ≤ 3) : ∃ log t, log ≠ [] ∧ writeValues log = .ok (some t) ∧ ∀ v : Json ℝ,
    runOn [1] n exEnv "still.json" "out" (newRunner ⟨[("still.json", exConfigM [("mass_conservation", v)] (.int 1) (stillNum 3 n) stillChoice)], [], []⟩) =
      some (.ok (), ⟨[("still.json", exConfigM [("mass_conservation", v)] (.int 1) (stillNum 3 n) stillChoice)],
        [(resultFileName "out" "example" (toString (1 : Int)), t)], log⟩) := by
  obtain ⟨log, t, hne, hw, _, _, hrun⟩ := still_run n hn1 hn3 1 (.inr rfl) (fun _ x => x)
  have r0 := hrun "still.json" "out" ⟨[("still.json", stillConfig 3 n (.int 1))], [], []⟩ (by rw [lookup_cons_eq, if_pos rfl])
  refine ⟨log, t, hne, hw, fun v => ?_⟩
  have hs := (exConfig_same exEnv (.int 1) (stillNum 3 n) (stillNum 3 n) stillChoice [] [("mass_conservation", v)] (fun _ _ => rfl)
    (fun k hk => by rw [lookup_cons_eq, if_neg (Ne.symm hk)]; rfl) rfl (fun _ _ _ => rfl)).1
  have N := still_number exEnv 3 n (.int 1)
  have num : ∀ e ∈ allReq, ∀ x, NumberAt exEnv (stillConfig 3 n (.int 1)) e.1 e.2 x → x = stillNum 3 n e.1 e.2 := by
    rintro e he x ⟨v1, h1, h2⟩
    obtain ⟨v2, h3, h4⟩ := N e he
    rw [entry_unique h1 h3, h4] at h2
    exact (Except.ok.inj h2).symm
  rcases C95_switch_without_effect [1] (by simp) n exEnv "still.json" "out"
    (newRunner ⟨[("still.json", stillConfig 3 n (.int 1))], [], []⟩)
    (newRunner ⟨[("still.json", exConfigM [("mass_conservation", v)] (.int 1) (stillNum 3 n) stillChoice)], [], []⟩)
    (stillConfig 3 n (.int 1)) (exConfigM [("mass_conservation", v)] (.int 1) (stillNum 3 n) stillChoice)
    (by show lookup [("still.json", _)] "still.json" = _; rw [lookup_cons_eq, if_pos rfl])
    (by show lookup [("still.json", _)] "still.json" = _; rw [lookup_cons_eq, if_pos rfl]) rfl rfl stillChoice
    (exConfig_selects _ _) hs rfl (by decide) (by decide)
    (by
      intro u hu
      rw [topEntry_unique hu ⟨_, rfl, rfl⟩]
      intro e
      have := Except.ok.inj e
      have h1 : (((1 : Int)) : ℝ) = 0 := this
      norm_num at h1)
    (by intro x hx; rw [num ("lava_state", "density_dre") (by decide) x hx]; show (1 : ℝ) ≠ 0; norm_num)
    (by intro x hx; rw [num ("lava_state", "vesicle_fraction") (by decide) x hx]; show (0 : ℝ) ≠ 1; norm_num)
    with ⟨e, e', r1, r2⟩ | ⟨r1, r2⟩ | ⟨r, l, results, r1, r2⟩
  · rw [r0] at r1; cases r1
  · rw [r0] at r1; cases r1
  · rw [r0] at r1
    cases r1
    exact r2

/-- A run with the switch on that meets the hypotheses of `C95_mass_flux_of_a_run`, with rows in its log. -/
theorem still_mass_simulation : ∃ (g : Integrator ℝ) (w0 w' : World ℝ), g.massConservation = true ∧ 0 < g.dx ∧
    StrainIndependent g.models.lava ∧ w0.log = [] ∧ w0.iteration = 0 ∧ w0.terrain.effusionRateInit ≠ 0 ∧
    simulateOn [1] 3 g w0 = some (.ok (), w') ∧ w'.log ≠ [] := by
  obtain ⟨log, t, hne, hw, hrun⟩ := still_mass_run 3 (by norm_num) (by norm_num)
  have h := hrun (.bool true)
  have hp := still_prepare exEnv rfl 3 (3 : ℕ) (.int 1) 1 (by show Except.ok (((1 : Int)) : ℝ) = _; norm_num) []
  have hs := (exConfig_same exEnv (.int 1) (stillNum 3 (3 : ℕ)) (stillNum 3 (3 : ℕ)) stillChoice [] [("mass_conservation", .bool true)] (fun _ _ => rfl)
    (fun k hk => by rw [lookup_cons_eq, if_neg (Ne.symm hk)]; rfl) rfl (fun _ _ _ => rfl)).1
  obtain ⟨raw, e1, e2⟩ := same_prepare hs (exConfig_selects _ _) [] _ hp
  have hraw : massConservationOf raw = true := by
    have : rawMassConservation (exConfigM [("mass_conservation", .bool true)] (.int 1) (stillNum 3 (3 : ℕ)) stillChoice) = .ok (.bool true) := rfl
    rw [this] at e1
    cases e1
    rfl
  rw [hraw] at e2
  refine ⟨((stillPrepared 3 (3 : ℕ) (.int 1) 1 []).withMass true).integrator, ((stillPrepared 3 (3 : ℕ) (.int 1) 1 []).withMass true).world, ?_⟩
  unfold runOn at h
  rw [show lookup (newRunner (⟨[("still.json", exConfigM [("mass_conservation", .bool true)] (.int 1) (stillNum 3 (3 : ℕ)) stillChoice)], [], []⟩ : Proc ℝ)).json
    (exEnv.canon "still.json") = some (exConfigM [("mass_conservation", .bool true)] (.int 1) (stillNum 3 (3 : ℕ)) stillChoice) by
      show lookup [("still.json", _)] "still.json" = _; rw [lookup_cons_eq, if_pos rfl]] at h
  dsimp only at h
  rw [show (newRunner (⟨[("still.json", exConfigM [("mass_conservation", .bool true)] (.int 1) (stillNum 3 (3 : ℕ)) stillChoice)], [], []⟩ : Proc ℝ)).log = [] from rfl,
    e2] at h
  dsimp only at h
  have fix : ((stillPrepared 3 (3 : ℕ) (.int 1) 1 []).withMass true).integrator.massConservation = true ∧
      0 < ((stillPrepared 3 (3 : ℕ) (.int 1) 1 []).withMass true).integrator.dx := ⟨rfl, by show (0 : ℝ) < 1; norm_num⟩
  cases hsim : simulateOn [1] 3 ((stillPrepared 3 (3 : ℕ) (.int 1) 1 []).withMass true).integrator
      ((stillPrepared 3 (3 : ℕ) (.int 1) 1 []).withMass true).world with
  | none => rw [hsim] at h; cases h
  | some o =>
    obtain ⟨r, w⟩ := o
    rw [hsim] at h
    cases r with
    | error e => cases h
    | ok u =>
      refine ⟨w, fix.1, fix.2, fun _ _ => rfl, rfl, rfl, by show (1 : ℝ) ≠ 0; norm_num, rfl, ?_⟩
      dsimp only at h
      intro e0
      apply hne
      cases hwv : writeValues w.log with
      | error e => rw [hwv] at h; cases h
      | ok t' =>
        rw [hwv] at h
        cases t' with
        | none => cases h
        | some t' =>
          have := congrArg (fun q : Option (Except Err Unit × Proc ℝ) => q.map (fun z => z.2.log)) h
          have h2 : some w.log = some log := this
          rw [← Option.some.inj h2]
          exact e0

end PyFlowGo
