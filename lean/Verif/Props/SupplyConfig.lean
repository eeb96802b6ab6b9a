import Verif.Props.Supply
import Verif.Props.Relevant
import Verif.Props.CutoffConfig
/-
  C97 on configuration files.
-/
set_option linter.unusedSectionVars false
namespace PyFlowGo
open Spec

theorem sameModels_of_supply {env : Env ℝ} {c : Choice} {d d' : Json ℝ} (h : SameButSupply env c d d') : SameModels env c d d' :=
  ⟨fun e he hn v => h.entry e he (fun hc => hn (by rw [hc]; decide)) v, h.idle, h.table, h.profile⟩

theorem sameButSupply_symm {env : Env ℝ} {c : Choice} {d d' : Json ℝ} (h : SameButSupply env c d d') : SameButSupply env c d' d :=
  ⟨fun e he hn v => (h.entry e he hn v).symm, fun k hk hn v => (h.top k hk hn v).symm, fun e he => (h.idle e he).symm,
    fun hc => (h.table hc).symm, fun hc => (h.profile hc).symm⟩

section prep
variable {c : Choice} {d d' : Json ℝ} {env : Env ℝ}

/-- The channel read from both configurations is the same but for the effusion rate and the depth. -/
theorem supply_terrain (h : SameButSupply env c d d') (r D : ℝ) (hr : RateIs env d' r)
    (hD : NumberAt env d' "terrain_conditions" "depth" D) (t : Terrain ℝ) (ht : buildTerrain env d = .ok t) :
    buildTerrain env d' = .ok { t with effusionRateInit := r, depth := D } := by
  have e : ∀ key v, ("terrain_conditions", key) ∈ channelEntries → key ≠ "depth" →
      EntryAt d "terrain_conditions" key v → EntryAt d' "terrain_conditions" key v := by
    intro key v hm hn
    exact (h.entry ("terrain_conditions", key) (by simp [usedEntries, hm]) (fun hc => hn (Prod.mk.inj hc).2) v).mp
  have n : ∀ key x, ("terrain_conditions", key) ∈ channelEntries → key ≠ "depth" →
      NumberAt env d "terrain_conditions" key x → NumberAt env d' "terrain_conditions" key x := by
    rintro key x hm hn ⟨v, hv, hx⟩
    exact ⟨v, e key v hm hn hv, hx⟩
  obtain ⟨v, hv, hvr⟩ := hr
  unfold buildTerrain readSmoothingPoints at *
  simp only [bind_ok_iff, get_ok_iff, getF_ok_iff, getJ_ok_iff, pure_ok_iff] at *
  obtain ⟨a, h1, a', h2, dd, h3, w, h4, g, h5, l, h6, act, h7, pts, h8, sl, h9, rfl⟩ := ht
  refine ⟨v, hv, r, hvr, D, hD, w, n _ _ (by simp [channelEntries]) (by decide) h4, g, n _ _ (by simp [channelEntries]) (by decide) h5,
    l, n _ _ (by simp [channelEntries]) (by decide) h6, act, e _ _ (by simp [channelEntries]) (by decide) h7, pts, ?_, sl, h9, rfl⟩
  split
  · rename_i hs
    rw [if_pos hs, getF_ok_iff] at h8
    rw [getF_ok_iff]
    exact n _ _ (by simp [channelEntries]) (by decide) h8
  · rename_i hs
    rwa [if_neg hs] at h8

/-- Reading the profile looks neither at the effusion rate nor at the depth. -/
theorem loadSlope_supply (r D : ℝ) (t t' : Terrain ℝ) (s : Json ℝ) (h : loadSlope env t s = .ok t') :
    loadSlope env { t with effusionRateInit := r, depth := D } s = .ok { t' with effusionRateInit := r, depth := D } := by
  unfold loadSlope at *
  dsimp only at *
  split
  · rename_i hp; rw [hp] at h; cases h
  · rename_i p hp
    rw [hp] at h
    dsimp only at h
    split
    · rename_i hs; rw [hs] at h; cases h
    · rename_i lines hs
      rw [hs] at h
      dsimp only at h
      unfold Terrain.readSlope at *
      simp only [bind_ok_iff] at *
      obtain ⟨a, h1, h⟩ := h
      refine ⟨a, h1, ?_⟩
      split
      · rename_i hb
        rw [if_pos hb] at h
        simp only [bind_ok_iff, pure_ok_iff] at h ⊢
        obtain ⟨b, h2, sp, h3, rfl⟩ := h
        exact ⟨b, h2, sp, h3, rfl⟩
      · rename_i hb
        rw [if_neg hb] at h
        simp only [bind_ok_iff, pure_ok_iff] at h ⊢
        obtain ⟨b, h2, sp, h3, rfl⟩ := h
        exact ⟨b, h2, sp, h3, rfl⟩

/-- What a run prepares from both configurations. -/
theorem supply_prepare (h : SameButSupply env c d d') (hs : SameSwitch d d') (hc : Selects d c) (r D : ℝ) (v : Json ℝ)
    (hv : TopEntry d' "effusion_rate_init" v) (hvr : v.toFloat env = .ok r)
    (hD : NumberAt env d' "terrain_conditions" "depth" D) (hD0 : D ≠ 0)
    (log : Log (Cell ℝ)) (pr : Prepared ℝ) (hp : prepare env d log = .ok pr) :
    ∃ x, prepare env d' log = .ok { cfg := { pr.cfg with rate := v }, integrator := pr.integrator, world := pr.world.supplied r D x } := by
  have tp : ∀ k v, k ∈ usedTop → k ≠ "effusion_rate_init" → TopEntry d k v → TopEntry d' k v := fun k v hk hn => (h.top k hk hn v).mp
  have hp0 := hp
  unfold prepare readRunConfig at hp0
  simp only [bind_ok_iff, pure_ok_iff] at hp0
  obtain ⟨_, ⟨_, _, _, _, _, _, _, _, _, _, raw0, hraw, hcfg⟩, _⟩ := hp0
  unfold prepare at *
  simp only [bind_ok_iff, pure_ok_iff, getF_ok_iff] at hp
  obtain ⟨cfg, h1, t0, h2, tt, h3, m, h4, pos, h5, time, h6, st, h7, rfl⟩ := hp
  have hm : cfg.massConservation = massConservationOf raw0 := by
    unfold readRunConfig at h1
    simp only [bind_ok_iff, pure_ok_iff] at h1
    obtain ⟨_, _, _, _, _, _, _, _, _, _, raw1, hr1, rfl⟩ := h1
    rw [hraw] at hr1
    cases hr1
    rfl
  obtain ⟨a1, a2, a3, ⟨sz, a4, a4'⟩, inner, a5, a6⟩ := (readRunConfig_iff env d cfg).mp h1
  have h2' := supply_terrain h r D ⟨v, hv, hvr⟩ hD t0 h2
  obtain ⟨inner', hi'⟩ : ∃ inner', TopEntry d' "terrain_conditions" (.obj inner') := by
    obtain ⟨v, ⟨top, inner', g1, g2, _⟩, _⟩ := hD
    exact ⟨inner', top, g1, g2⟩
  have hraw' : rawMassConservation d' = .ok ((lookup inner' "mass_conservation").getD (.bool false)) := by
    unfold rawMassConservation
    rw [(get_ok_iff d' _ _).mpr hi', ok_bind]
  have hsw := same_switch hs _ _ hraw hraw'
  simp only [bind_ok_iff, pure_ok_iff, getF_ok_iff]
  obtain ⟨x, hst⟩ : ∃ x, initialState m { tt with effusionRateInit := r, depth := D } pos time = .ok { st with strain := x } := by
    unfold initialState at *
    simp only [bind_ok_iff, pure_ok_iff, div_ok_iff, npow_real] at *
    obtain ⟨phi, g1, a, ⟨g2, g2'⟩, x, ⟨g3, g3'⟩, rfl⟩ := h7
    exact ⟨_, phi, g1, _, ⟨pow_ne_zero 2 hD0, rfl⟩, _, ⟨g3, rfl⟩, rfl⟩
  have num : ∀ e, e ∈ channelEntries → e ≠ ("terrain_conditions", "depth") → ∀ x, NumberAt env d e.1 e.2 x → NumberAt env d' e.1 e.2 x := by
    rintro e he hn x ⟨v, hv, hx⟩
    exact ⟨v, (h.entry e (by simp [usedEntries, he]) hn v).mp hv, hx⟩
  exact ⟨x, _, (readRunConfig_iff env d' { cfg with rate := v }).mpr ⟨hv, tp _ _ (by simp [usedTop]) (by decide) a2,
    tp _ _ (by simp [usedTop]) (by decide) a3, ⟨sz, tp _ _ (by simp [usedTop]) (by decide) a4, a4'⟩, inner', hi', by
      show cfg.massConservation = _
      rw [hm, hsw]⟩, _, h2', _,
    loadSlope_supply r D _ _ _ h3, m, same_factory (sameModels_of_supply h) hc m h4, pos, num ("lava_state", "position") (by decide) (by decide) _ h5,
    time, num ("lava_state", "time") (by decide) (by decide) _ h6, _, hst, rfl⟩

end prep

/-- What `run` does after the simulation. -/
def finishRun (p : Proc ℝ) (name : String) : Option (Except Err Unit × Log (Cell ℝ)) → Option (Except Err Unit × Proc ℝ)
  | none => none
  | some (.error e, l) => some (.error e, { p with log := l })
  | some (.ok _, l) =>
    match writeValues l with
    | .error e => some (.error e, { p with log := l })
    | .ok none => some (.ok (), { p with log := l })
    | .ok (some t) => some (.ok (), { p with log := l, results := writeFile p.results name t })

theorem runOn_finish (grid : List ℝ) (fuel : Nat) (env : Env ℝ) (jsonFile folder : String) (p : Proc ℝ) (d : Json ℝ)
    (hd : lookup p.json (env.canon jsonFile) = some d) (pr : Prepared ℝ) (hp : prepare env d p.log = .ok pr) :
    runOn grid fuel env jsonFile folder p =
      finishRun p (env.canon (resultFileName folder (pr.cfg.lavaName.show env) (pr.cfg.rate.show env)))
        (outcome (simulateOn grid fuel pr.integrator pr.world)) := by
  unfold runOn
  rw [hd]
  dsimp only
  rw [hp]
  dsimp only
  cases simulateOn grid fuel pr.integrator pr.world with
  | none => rfl
  | some o =>
    obtain ⟨r, w⟩ := o
    cases r with
    | error e => rfl
    | ok _ =>
      unfold outcome finishRun
      dsimp only [Option.map_some]
      cases writeValues w.log with
      | error e => rfl
      | ok t => cases t <;> rfl

/-- The rheologies that do not read the strain rate, by their names in the configuration. -/
theorem strain_free_choice {env : Env ℝ} {d : Json ℝ} {c : Choice} (hc : Selects d c) (hrel : c.rel ≠ "bll" ∧ c.rel ≠ "mader")
    (hbub : c.bub ≠ "mader") {m : Models ℝ} (hm : factory env d = .ok m) : StrainIndependent m.lava := by
  obtain ⟨c', hc', hm⟩ := (C55_models_come_from_the_configuration _ _ _).mp hm
  have := selects_unique hc hc'
  subst this
  obtain ⟨_, _, ⟨_, lves, lrel, lbub, _, _, _, _, ldre, _⟩, _⟩ := hm
  apply C22_which_models_are_strain_independent
  · intro a1 a2 a3 a4 a5 a6 a7 a8 e
    rw [e] at lrel
    generalize c.rel = s at *
    unfold RelFrom at lrel
    split at lrel <;> simp_all
  · intro a e
    rw [e] at lrel
    generalize c.rel = s at *
    unfold RelFrom at lrel
    split at lrel <;> simp_all
  · intro a1 a2 a3 a4 a5 e
    rw [e] at lbub
    generalize c.bub = s at *
    unfold BubFrom at lbub
    split at lbub <;> simp_all

/-- Facts on a preparation used below. -/
theorem prepared_facts {env : Env ℝ} {d : Json ℝ} {log : Log (Cell ℝ)} {pr : Prepared ℝ} (hp : prepare env d log = .ok pr) :
    RateIs env d pr.world.terrain.effusionRateInit ∧ NumberAt env d "terrain_conditions" "depth" pr.world.terrain.depth ∧
    pr.world.terrain.depth ≠ 0 ∧ pr.world.log = log ∧ pr.world.iteration = 0 ∧ pr.world.finished = false ∧
    NumberAt env d "lava_state" "position" pr.world.st.pos ∧
    (∃ sz, TopEntry d "step_size" sz ∧ sz.toFloat env = .ok pr.integrator.dx) ∧
    factory env d = .ok pr.integrator.models ∧
    ∃ inner, TopEntry d "terrain_conditions" (.obj inner) ∧
      pr.integrator.massConservation = massConservationOf ((lookup inner "mass_conservation").getD (.bool false)) := by
  rw [C55_run_starts_from_the_configuration] at hp
  obtain ⟨⟨_, _, _, ⟨sz, hsz, hsz'⟩, inner, hin, hmc⟩, ⟨t0, path, rows, ⟨⟨v, g1, g2⟩, g3, _⟩, _, _, _, hslope⟩, hm, hdx, hmass, hpos, _, _, _, hD0, _, _, hlog,
    _, _, hit, hfin⟩ := hp
  obtain ⟨sp, e⟩ := readSlope_keeps hslope
  refine ⟨⟨v, g1, ?_⟩, ?_, hD0, hlog, hit, hfin, hpos, ⟨sz, hsz, by rw [hdx]; exact hsz'⟩, hm, inner, hin, by rw [hmass]; exact hmc⟩
  · rw [e]; exact g2
  · rw [e]; exact g3

theorem rate_unique {env : Env ℝ} {d : Json ℝ} {r r' : ℝ} (h : RateIs env d r) (h' : RateIs env d r') : r = r' := by
  obtain ⟨v, h1, h2⟩ := h
  obtain ⟨v', h1', h2'⟩ := h'
  rw [topEntry_unique h1 h1', h2'] at h2
  exact (Except.ok.inj h2).symm

/-- **C97** on configuration files, the depth. With an effusion rate other than zero (and a rheology that does not read the strain
    rate) two configurations that differ in the depth of the channel, both depths being numbers other than zero, end in the same way and
    leave the same log and the same result file; or both raise before they change anything. -/
theorem C97_depth_has_no_effect (grid : List ℝ) (hgrid : grid ≠ []) (fuel : Nat) (env : Env ℝ) (jsonFile folder : String) (p p' : Proc ℝ)
    (d d' : Json ℝ) (hd : lookup p.json (env.canon jsonFile) = some d) (hd' : lookup p'.json (env.canon jsonFile) = some d')
    (hlog : p'.log = p.log) (hres : p'.results = p.results)
    (c : Choice) (hc : Selects d c) (h : SameButSupply env c d d') (hs : SameSwitch d d')
    (hrel : c.rel ≠ "bll" ∧ c.rel ≠ "mader") (hbub : c.bub ≠ "mader")
    (v : Json ℝ) (hv : TopEntry d "effusion_rate_init" v) (hv' : TopEntry d' "effusion_rate_init" v) (r : ℝ) (hr : v.toFloat env = .ok r)
    (hr0 : r ≠ 0) (D D' : ℝ) (hD : NumberAt env d "terrain_conditions" "depth" D) (hD0 : D ≠ 0)
    (hD' : NumberAt env d' "terrain_conditions" "depth" D') (hD0' : D' ≠ 0) :
    (∃ e e', runOn grid fuel env jsonFile folder p = some (.error e, p) ∧ runOn grid fuel env jsonFile folder p' = some (.error e', p')) ∨
    (runOn grid fuel env jsonFile folder p = none ∧ runOn grid fuel env jsonFile folder p' = none) ∨
    ∃ o log results, runOn grid fuel env jsonFile folder p = some (o, { p with log := log, results := results }) ∧
      runOn grid fuel env jsonFile folder p' = some (o, { p' with log := log, results := results }) := by
  cases hp : prepare env d p.log with
  | error e =>
    cases hp' : prepare env d' p.log with
    | error e' =>
      refine .inl ⟨e, e', ?_, ?_⟩
      · unfold runOn; rw [hd]; dsimp only; rw [hp]
      · unfold runOn; rw [hd', hlog]; dsimp only; rw [hp']
    | ok pr =>
      obtain ⟨x, hx⟩ := supply_prepare (sameButSupply_symm h) (fun v => (hs v).symm) (same_selects (sameModels_of_supply h) hc) r D v hv hr hD hD0
        p.log pr hp'
      rw [hp] at hx
      cases hx
  | ok pr =>
    obtain ⟨x, hx⟩ := supply_prepare h hs hc r D' v hv' hr hD' hD0' p.log pr hp
    obtain ⟨f1, _, _, _, _, _, _, _, f9, _⟩ := prepared_facts hp
    have er : pr.world.terrain.effusionRateInit = r := rate_unique f1 ⟨v, hv, hr⟩
    have ev : pr.cfg.rate = v := by
      have hpc := hp
      rw [C55_run_starts_from_the_configuration] at hpc
      obtain ⟨⟨g1, _⟩, _⟩ := hpc
      exact topEntry_unique g1 hv
    have key := C97_configured_depth grid hgrid fuel pr.integrator (strain_free_choice hc hrel hbub f9) pr.world (by rw [er]; exact hr0) D' x
    rw [er] at key
    rw [runOn_finish grid fuel env jsonFile folder p d hd pr hp,
      runOn_finish grid fuel env jsonFile folder p' d' hd' _ (by rw [hlog]; exact hx)]
    dsimp only
    rw [key, ev]
    refine .inr ?_
    generalize outcome (simulateOn grid fuel pr.integrator pr.world) = o
    cases o with
    | none => exact .inl ⟨rfl, rfl⟩
    | some o =>
      obtain ⟨o, l⟩ := o
      refine .inr ?_
      cases o with
      | error e => exact ⟨_, l, p.results, rfl, by rw [← hres]; rfl⟩
      | ok _ =>
        unfold finishRun
        dsimp only
        cases writeValues l with
        | error e => exact ⟨_, l, p.results, rfl, by rw [← hres]⟩
        | ok t =>
          cases t with
          | none => exact ⟨_, l, p.results, rfl, by rw [← hres]⟩
          | some t => exact ⟨_, l, _, rfl, by dsimp only; rw [hres]⟩

/-- A run that ended normally and shows the depth `D` at the vent searched and found that depth. -/
theorem run_depth {grid : List ℝ} {fuel : Nat} {env : Env ℝ} {jsonFile folder : String} {p : Proc ℝ} {d : Json ℝ}
    (hd : lookup p.json (env.canon jsonFile) = some d) (hlog : p.log = []) {x0 : ℝ} (hx0 : NumberAt env d "lava_state" "position" x0)
    {sz : Json ℝ} (hsz : TopEntry d "step_size" sz) {dx : ℝ} (hdx : sz.toFloat env = .ok dx) (hpos : 0 < dx)
    {q : Proc ℝ} (hrun : runOn grid fuel env jsonFile folder p = some (.ok (), q)) {D : ℝ}
    (hD : loggedNum q.log x0 "channel_depth" = some D) :
    ∃ pr w1 w t, prepare env d p.log = .ok pr ∧ initEffusionRateOn grid pr.integrator.models.lava pr.world = (.ok (), w1) ∧
      w1.terrain.depth = D ∧ D ≠ 0 ∧ simulateOn grid fuel pr.integrator pr.world = some (.ok (), w) ∧ q.log = w.log ∧
      writeValues w.log = .ok (some t) ∧
      q.results = writeFile p.results (env.canon (resultFileName folder (pr.cfg.lavaName.show env) (pr.cfg.rate.show env))) t := by
  cases hp : prepare env d p.log with
  | error e =>
    unfold runOn at hrun
    rw [hd] at hrun
    dsimp only at hrun
    rw [hp] at hrun
    cases hrun
  | ok pr =>
    obtain ⟨_, _, _, f4, _, _, f7, ⟨sz', f8, f8'⟩, _, _⟩ := prepared_facts hp
    have e1 : pr.integrator.dx = dx := by
      rw [topEntry_unique f8 hsz, hdx] at f8'
      exact (Except.ok.inj f8').symm
    have e2 : pr.world.st.pos = x0 := number_unique f7 hx0
    rw [runOn_finish grid fuel env jsonFile folder p d hd pr hp] at hrun
    cases hsim : simulateOn grid fuel pr.integrator pr.world with
    | none => rw [hsim] at hrun; cases hrun
    | some o =>
      obtain ⟨o, w⟩ := o
      rw [hsim] at hrun
      cases o with
      | error e => cases hrun
      | ok _ =>
        have hsim0 := hsim
        unfold simulateOn at hsim
        have k0 := initEffusion_keeps pr.integrator.models.lava grid pr.world
        cases hi : initEffusionRateOn grid pr.integrator.models.lava pr.world with
        | mk o1 w1 =>
          rw [hi] at hsim k0
          obtain ⟨a1, a2, _⟩ := k0
          cases o1 with
          | error e => cases hsim
          | ok _ =>
            dsimp only at hsim a1 a2
            unfold outcome finishRun at hrun
            dsimp only [Option.map_some] at hrun
            cases hw : writeValues w.log with
            | error e => rw [hw] at hrun; cases hrun
            | ok t =>
              rw [hw] at hrun
              cases t with
              | none =>
                exfalso
                obtain rfl := (Prod.mk.inj (Option.some.inj hrun)).2
                cases hwl : w.log with
                | nil => dsimp only at hD; rw [hwl] at hD; cases hD
                | cons a b =>
                  rw [hwl] at hw
                  unfold writeValues at hw
                  simp only [bind_ok_iff, pure_ok_iff] at hw
                  obtain ⟨_, _, hw⟩ := hw
                  cases hw
              | some t =>
                obtain rfl := (Prod.mk.inj (Option.some.inj hrun)).2
                dsimp only at hD
                have hwl : w1.log = [] := by rw [a1, f4, hlog]
                obtain ⟨g1, g2⟩ := shown_depth pr.integrator (by rw [e1]; exact hpos) fuel w1 w hwl hsim D (by rw [a2, e2]; exact hD)
                exact ⟨pr, w1, w, t, rfl, hi, g1.symm, g2, hsim0, rfl, hw, rfl⟩


/-- Preparing the second configuration gives the prepared first one with the rate and depth of the second. -/
theorem supply_prepared {env : Env ℝ} {c : Choice} {d d' : Json ℝ} (h : SameButSupply env c d d') (hs : SameSwitch d d') (hc : Selects d c)
    {log : Log (Cell ℝ)} {pr pr' : Prepared ℝ} (hp : prepare env d log = .ok pr) (hp' : prepare env d' log = .ok pr') :
    ∃ D' x, pr'.integrator = pr.integrator ∧ pr'.world = pr.world.supplied pr'.world.terrain.effusionRateInit D' x ∧
      pr'.cfg.lavaName = pr.cfg.lavaName := by
  obtain ⟨⟨v, f1, f1'⟩, f2, f3, _⟩ := prepared_facts hp'
  obtain ⟨x, hx⟩ := supply_prepare h hs hc _ _ v f1 f1' f2 f3 log pr hp
  rw [hp'] at hx
  have := Except.ok.inj hx
  rw [this]
  exact ⟨_, x, rfl, rfl, rfl⟩

/-- **C97** on configuration files, equal depths. Two configurations that differ in the effusion rate (other than zero in both) and in
    the configured depth, and whose runs show the same depth of the channel at the vent, leave the same log and write the same table;
    only the names of the two files differ, because the name contains the rate. -/
theorem C97_same_channel_depth (grid : List ℝ) (hgrid : grid ≠ []) (fuel : Nat) (env : Env ℝ) (jsonFile folder : String) (p p' : Proc ℝ)
    (d d' : Json ℝ) (hd : lookup p.json (env.canon jsonFile) = some d) (hd' : lookup p'.json (env.canon jsonFile) = some d')
    (hlog : p.log = []) (hlog' : p'.log = [])
    (c : Choice) (hc : Selects d c) (h : SameButSupply env c d d') (hs : SameSwitch d d')
    (hrel : c.rel ≠ "bll" ∧ c.rel ≠ "mader") (hbub : c.bub ≠ "mader")
    (r r' : ℝ) (hr : RateIs env d r) (hr' : RateIs env d' r') (hr0 : r ≠ 0) (hr0' : r' ≠ 0)
    (x0 : ℝ) (hx0 : NumberAt env d "lava_state" "position" x0)
    (sz : Json ℝ) (hsz : TopEntry d "step_size" sz) (dx : ℝ) (hdx : sz.toFloat env = .ok dx) (hpos : 0 < dx)
    (q q' : Proc ℝ) (hrun : runOn grid fuel env jsonFile folder p = some (.ok (), q))
    (hrun' : runOn grid fuel env jsonFile folder p' = some (.ok (), q')) (D : ℝ)
    (hD : loggedNum q.log x0 "channel_depth" = some D) (hD' : loggedNum q'.log x0 "channel_depth" = some D) :
    q'.log = q.log ∧ ∃ t name name', writeValues q.log = .ok (some t) ∧ q.results = writeFile p.results name t ∧
      q'.results = writeFile p'.results name' t := by
  obtain ⟨v0, hv0, hx0v⟩ := id hx0
  have hx0' : NumberAt env d' "lava_state" "position" x0 :=
    ⟨v0, (h.entry ("lava_state", "position") (by simp [usedEntries, channelEntries]) (by decide) v0).mp hv0, hx0v⟩
  have hsz' := (h.top "step_size" (by simp [usedTop]) (by decide) sz).mp hsz
  obtain ⟨pr, w1, w, t, hp, hi, hw1, hDne, hsim, hql, hwv, hqr⟩ := run_depth hd hlog hx0 hsz hdx hpos hrun hD
  obtain ⟨pr', w1', w', t', hp', hi', hw1', _, hsim', hql', hwv', hqr'⟩ := run_depth hd' hlog' hx0' hsz' hdx hpos hrun' hD'
  rw [hlog] at hp
  rw [hlog'] at hp'
  obtain ⟨D', x, e1, e2, _⟩ := supply_prepared h hs hc hp hp'
  obtain ⟨f1, _, _, _, _, _, _, _, f9, _⟩ := prepared_facts hp
  obtain ⟨f1', _⟩ := prepared_facts hp'
  have er := rate_unique f1 hr
  have er' := rate_unique f1' hr'
  rw [e1, e2] at hi' hsim'
  rw [er'] at hi' hsim'
  have key := C97_same_depth grid hgrid fuel pr.integrator (strain_free_choice hc hrel hbub f9) pr.world (by rw [er]; exact hr0) r' D' x hr0'
    w1 w1' hi hi' (by rw [hw1, hw1'])
  rw [hsim, hsim'] at key
  have hl : w'.log = w.log := (Prod.mk.inj (Option.some.inj key)).2
  rw [hl, hwv] at hwv'
  obtain rfl : t = t' := Option.some.inj (Except.ok.inj hwv')
  exact ⟨by rw [hql', hql, hl], t, _, _, by rw [hql]; exact hwv, hqr, hqr'⟩

/-- **C97** on configuration files, a larger rate. The depth of the channel at the vent is not smaller for a larger effusion rate. -/
theorem C97_deeper_channel (grid : List ℝ) (hgrid : grid ≠ []) (hinc : grid.Pairwise (· ≤ ·)) (fuel : Nat) (env : Env ℝ)
    (jsonFile folder : String) (p p' : Proc ℝ)
    (d d' : Json ℝ) (hd : lookup p.json (env.canon jsonFile) = some d) (hd' : lookup p'.json (env.canon jsonFile) = some d')
    (hlog : p.log = []) (hlog' : p'.log = [])
    (c : Choice) (hc : Selects d c) (h : SameButSupply env c d d') (hs : SameSwitch d d')
    (hrel : c.rel ≠ "bll" ∧ c.rel ≠ "mader") (hbub : c.bub ≠ "mader")
    (r r' : ℝ) (hr : RateIs env d r) (hr' : RateIs env d' r') (hr0 : r ≠ 0) (hr0' : r' ≠ 0) (hle : r ≤ r')
    (x0 : ℝ) (hx0 : NumberAt env d "lava_state" "position" x0)
    (sz : Json ℝ) (hsz : TopEntry d "step_size" sz) (dx : ℝ) (hdx : sz.toFloat env = .ok dx) (hpos : 0 < dx)
    (q q' : Proc ℝ) (hrun : runOn grid fuel env jsonFile folder p = some (.ok (), q))
    (hrun' : runOn grid fuel env jsonFile folder p' = some (.ok (), q')) (D D' : ℝ)
    (hD : loggedNum q.log x0 "channel_depth" = some D) (hD' : loggedNum q'.log x0 "channel_depth" = some D') : D ≤ D' := by
  obtain ⟨v0, hv0, hx0v⟩ := id hx0
  have hx0' : NumberAt env d' "lava_state" "position" x0 :=
    ⟨v0, (h.entry ("lava_state", "position") (by simp [usedEntries, channelEntries]) (by decide) v0).mp hv0, hx0v⟩
  have hsz' := (h.top "step_size" (by simp [usedTop]) (by decide) sz).mp hsz
  obtain ⟨pr, w1, w, t, hp, hi, hw1, hDne, hsim, hql, hwv, hqr⟩ := run_depth hd hlog hx0 hsz hdx hpos hrun hD
  obtain ⟨pr', w1', w', t', hp', hi', hw1', _, hsim', hql', hwv', hqr'⟩ := run_depth hd' hlog' hx0' hsz' hdx hpos hrun' hD'
  rw [hlog] at hp
  rw [hlog'] at hp'
  obtain ⟨Dc, x, e1, e2, _⟩ := supply_prepared h hs hc hp hp'
  obtain ⟨f1, _, _, _, _, _, _, _, f9, _⟩ := prepared_facts hp
  obtain ⟨f1', _⟩ := prepared_facts hp'
  have er := rate_unique f1 hr
  have er' := rate_unique f1' hr'
  rw [e1, e2, er'] at hi'
  have := C97_larger_rate grid hgrid hinc pr.integrator.models.lava (strain_free_choice hc hrel hbub f9) pr.world (by rw [er]; exact hr0)
    r' Dc x hr0' (by rw [er]; exact hle) w1 w1' hi hi'
  rwa [hw1, hw1'] at this

/-- **C97** on configuration files, no rate. If a run with an effusion rate other than zero and without mass conservation ended
    normally and shows the depth `D` at the vent, the configuration with the effusion rate zero and the depth `D` runs to the same
    end: the same log and the same table. -/
theorem C97_without_rate (grid : List ℝ) (hgrid : grid ≠ []) (fuel : Nat) (env : Env ℝ) (jsonFile folder : String) (p p' : Proc ℝ)
    (d d' : Json ℝ) (hd : lookup p.json (env.canon jsonFile) = some d) (hd' : lookup p'.json (env.canon jsonFile) = some d')
    (hlog : p.log = []) (hlog' : p'.log = [])
    (c : Choice) (hc : Selects d c) (h : SameButSupply env c d d') (hs : SameSwitch d d')
    (hrel : c.rel ≠ "bll" ∧ c.rel ≠ "mader") (hbub : c.bub ≠ "mader")
    (hmass : ∀ v, EntryAt d "terrain_conditions" "mass_conservation" v → v = .bool false)
    (r : ℝ) (hr : RateIs env d r) (hr' : RateIs env d' 0) (hr0 : r ≠ 0)
    (x0 : ℝ) (hx0 : NumberAt env d "lava_state" "position" x0)
    (sz : Json ℝ) (hsz : TopEntry d "step_size" sz) (dx : ℝ) (hdx : sz.toFloat env = .ok dx) (hpos : 0 < dx)
    (q : Proc ℝ) (hrun : runOn grid fuel env jsonFile folder p = some (.ok (), q)) (D : ℝ)
    (hD : loggedNum q.log x0 "channel_depth" = some D) (hD' : NumberAt env d' "terrain_conditions" "depth" D) :
    ∃ t name name', writeValues q.log = .ok (some t) ∧ q.results = writeFile p.results name t ∧
      runOn grid fuel env jsonFile folder p' = some (.ok (), { p' with log := q.log, results := writeFile p'.results name' t }) := by
  obtain ⟨pr, w1, w, t, hp, hi, hw1, hDne, hsim, hql, hwv, hqr⟩ := run_depth hd hlog hx0 hsz hdx hpos hrun hD
  rw [hlog] at hp
  obtain ⟨v, hv, hvr⟩ := hr'
  obtain ⟨x, hx⟩ := supply_prepare h hs hc 0 D v hv hvr hD' hDne [] pr hp
  obtain ⟨f1, _, _, _, f5, _, _, _, f9, inner, f10, f11⟩ := prepared_facts hp
  have er := rate_unique f1 hr
  have hm : pr.integrator.massConservation = false := by
    rw [f11]
    cases hl : lookup inner "mass_conservation" with
    | none => rfl
    | some u =>
      obtain ⟨top, g1, g2⟩ := f10
      rw [hmass u ⟨top, inner, g1, g2, hl⟩]
      rfl
  have key := C97_zero_rate grid hgrid fuel pr.integrator hm (strain_free_choice hc hrel hbub f9) pr.world f5 (by rw [er]; exact hr0) x w1 hi
  rw [hw1, hsim] at key
  refine ⟨t, _, env.canon (resultFileName folder (pr.cfg.lavaName.show env) (v.show env)), by rw [hql]; exact hwv, hqr, ?_⟩
  · rw [runOn_finish grid fuel env jsonFile folder p' d' hd' _ (by rw [hlog']; exact hx)]
    dsimp only
    rw [key]
    unfold outcome finishRun
    dsimp only [Option.map_some]
    rw [hwv, hql]

end PyFlowGo
