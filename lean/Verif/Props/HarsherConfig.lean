import Verif.Props.HarsherSensible
import Verif.Props.StrongerConfig
import Verif.Spec.Surroundings
/-
  C122 for two configuration files that differ in the surroundings.
-/
set_option linter.unusedSectionVars false
namespace PyFlowGo
open Spec

section
variable {env : Env ℝ} {d d' : Json ℝ} (h : SameButSurroundings d d')
include h

theorem around_number {sec key : String} (hs : surroundings sec key = false) (x : ℝ) : NumberAt env d sec key x ↔ NumberAt env d' sec key x :=
  exists_congr fun v => and_congr_left fun _ => h.entry sec key v hs

/-- The crystallisation model is read from entries that agree. -/
theorem around_cryst (s : String) (m : CrystModel ℝ) : CrystFrom env d s m ↔ CrystFrom env d' s m := by
  have n := fun sec key hs x => around_number (env := env) h (sec := sec) (key := key) hs x
  have t : (∃ v, TopEntry d "melts_look-up_table" v) ↔ ∃ v, TopEntry d' "melts_look-up_table" v := exists_congr fun v => h.top _ (by simp) v
  unfold CrystFrom
  split <;> simp +decide only [n, t]

/-- So is the lava, the names of its models being the same. -/
theorem around_lava {c c' : Choice} (e : c'.melt = c.melt ∧ c'.ves = c.ves ∧ c'.rel = c.rel ∧ c'.bub = c.bub ∧ c'.yld = c.yld) (l : Lava ℝ) :
    LavaFrom env d c l ↔ LavaFrom env d' c' l := by
  have n := fun sec key hs x => around_number (env := env) h (sec := sec) (key := key) hs x
  obtain ⟨e1, e2, e3, e4, e5⟩ := e
  have h1 : MeltFrom env d c.melt l.melt ↔ MeltFrom env d' c.melt l.melt := by
    unfold MeltFrom; split <;> simp +decide only [n]
  have h2 : VesFrom env d c.ves l.ves ↔ VesFrom env d' c.ves l.ves := by
    unfold VesFrom; split <;> simp +decide only [n]
  have h3 : RelFrom env d l.ves l.melt c.rel l.rel ↔ RelFrom env d' l.ves l.melt c.rel l.rel := by
    unfold RelFrom; split <;> simp +decide only [n]
  have h4 : BubFrom env d l.ves l.melt l.rel c.bub l.bub ↔ BubFrom env d' l.ves l.melt l.rel c.bub l.bub := by
    unfold BubFrom; split <;> simp +decide only [n]
  have h5 : YieldFrom env d c.yld l.yld ↔ YieldFrom env d' c.yld l.yld := by
    unfold YieldFrom; split <;> simp +decide only [n]
  unfold LavaFrom
  rw [e1, e2, e3, e4, e5, h1, h2, h3, h4, h5]
  simp +decide only [n]

/-- The two configurations choose the same models for lava and crystals. -/
theorem around_choice {c c' : Choice} (hc : Selects d c) (hc' : Selects d' c') :
    c'.cryst = c.cryst ∧ c'.melt = c.melt ∧ c'.ves = c.ves ∧ c'.rel = c.rel ∧ c'.bub = c.bub ∧ c'.yld = c.yld := by
  have u : ∀ key s s', surroundings "models" key = false → EntryAt d "models" key (.str s) → EntryAt d' "models" key (.str s') → s' = s := by
    intro key s s' hs h1 h2
    exact Json.str.inj (entry_unique h2 ((h.entry _ _ _ hs).mp h1))
  obtain ⟨a1, a2, a3, a4, a5, _, _, a8, _⟩ := hc
  obtain ⟨b1, b2, b3, b4, b5, _, _, b8, _⟩ := hc'
  exact ⟨u _ _ _ rfl a1 b1, u _ _ _ rfl a2 b2, u _ _ _ rfl a8 b8, u _ _ _ rfl a3 b3, u _ _ _ rfl a4 b4, u _ _ _ rfl a5 b5⟩

/-- The two configurations make the same lava and the same crystals. -/
theorem around_models {m m' : Models ℝ} (hm : factory env d = .ok m) (hm' : factory env d' = .ok m') : m'.lava = m.lava ∧ m'.cryst = m.cryst := by
  obtain ⟨c, hc, x1, _, x3, _⟩ := (C55_models_come_from_the_configuration env d m).mp hm
  obtain ⟨c', hc', y1, y2, y3, y4, y5, y6⟩ := (C55_models_come_from_the_configuration env d' m').mp hm'
  obtain ⟨e1, e⟩ := around_choice h hc hc'
  have := (C55_models_come_from_the_configuration env d' { m' with lava := m.lava, cryst := m.cryst }).mpr
    ⟨c', hc', by rw [e1]; exact (around_cryst h _ _).mp x1, y2, (around_lava h e _).mp x3, y4, y5, y6⟩
  rw [hm', Except.ok.injEq] at this
  rw [this]
  exact ⟨rfl, rfl⟩

/-- The same channel. -/
theorem around_terrain (t : Terrain ℝ) (ht : buildTerrain env d = .ok t) : buildTerrain env d' = .ok t := by
  have n := fun sec key hs x => (around_number (env := env) h (sec := sec) (key := key) hs x).mp
  unfold buildTerrain readSmoothingPoints at *
  simp only [bind_ok_iff, get_ok_iff, getF_ok_iff, getJ_ok_iff, pure_ok_iff] at *
  obtain ⟨a, h1, a', h2, dd, h3, w, h4, g, h5, l, h6, act, h7, pts, h8, sl, h9, rfl⟩ := ht
  refine ⟨a, (h.top _ (by simp [usedTop]) _).mp h1, a', h2, dd, n _ _ rfl _ h3, w, n _ _ rfl _ h4, g, n _ _ rfl _ h5,
    l, n _ _ rfl _ h6, act, (h.entry _ _ _ rfl).mp h7, pts, ?_, sl, h9, rfl⟩
  split
  · rename_i hs
    rw [if_pos hs, getF_ok_iff] at h8
    rw [getF_ok_iff]
    exact n _ _ rfl _ h8
  · rename_i hs
    rwa [if_neg hs] at h8

/-- **C122**, what differs. Two configurations that differ in the surroundings only make the same lava, in the same channel, with the same step, at the same vent. -/
theorem C122_same_lava {log : Log (Cell ℝ)} {pr pr' : Prepared ℝ} (hp : prepare env d log = .ok pr) (hp' : prepare env d' log = .ok pr') :
    EqualLava pr.integrator pr'.integrator ∧ pr'.world = pr.world ∧ pr'.cfg = pr.cfg := by
  unfold prepare at hp hp'
  simp only [bind_ok_iff, pure_ok_iff, getF_ok_iff] at hp hp'
  obtain ⟨cfg, h1, t0, h2, tt, h3, m, h4, pos, h5, time, h6, st, h7, rfl⟩ := hp
  obtain ⟨cfg', g1, t0', g2, tt', g3, m', g4, pos', g5, time', g6, st', g7, rfl⟩ := hp'
  have tp : ∀ k v, k ∈ usedTop → TopEntry d k v → TopEntry d' k v := fun k v hk => (h.top k (List.mem_cons_of_mem _ hk) v).mp
  have hsw : SameSwitch d d' := fun v => h.entry _ _ v rfl
  have ecfg : cfg' = cfg := by
    have h1' := h1
    have g1' := g1
    unfold readRunConfig at h1' g1'
    simp only [bind_ok_iff, pure_ok_iff] at h1' g1'
    obtain ⟨_, _, _, _, _, _, _, _, _, _, raw, hr, rfl⟩ := h1'
    obtain ⟨_, _, _, _, _, _, _, _, _, _, raw', hr', rfl⟩ := g1'
    have eraw := same_switch hsw _ _ hr hr'
    obtain ⟨a1, a2, a3, ⟨sz, a4, a4'⟩, _⟩ := (readRunConfig_iff env d _).mp h1
    obtain ⟨b1, b2, b3, ⟨sz', b4, b4'⟩, _⟩ := (readRunConfig_iff env d' _).mp g1
    have u1 := topEntry_unique b1 (tp _ _ (by simp [usedTop]) a1)
    have u2 := topEntry_unique b2 (tp _ _ (by simp [usedTop]) a2)
    have u3 := topEntry_unique b3 (tp _ _ (by simp [usedTop]) a3)
    have u4 := topEntry_unique b4 (tp _ _ (by simp [usedTop]) a4)
    rw [u4, a4', Except.ok.injEq] at b4'
    dsimp only at u1 u2 u3 b4'
    rw [u1, u2, u3, ← b4', eraw]
  subst ecfg
  rw [around_terrain h _ h2, Except.ok.injEq] at g2
  subst g2
  rw [h3, Except.ok.injEq] at g3
  subst g3
  obtain ⟨e1, e2⟩ := around_models h h4 g4
  obtain rfl := number_unique g5 ((around_number h rfl _).mp h5)
  obtain rfl := number_unique g6 ((around_number h rfl _).mp h6)
  have est : st' = st := by
    unfold initialState at h7 g7
    rw [e1, e2, h7, Except.ok.injEq] at g7
    exact g7.symm
  subst est
  exact ⟨⟨rfl, rfl, e1, e2⟩, rfl, rfl⟩
end

/-- A run that ends normally leaves the log of its simulation. -/
theorem run_log {grid : List ℝ} {fuel : Nat} {env : Env ℝ} {jsonFile folder : String} {p q : Proc ℝ} {d : Json ℝ} {pr : Prepared ℝ}
    (hd : lookup p.json (env.canon jsonFile) = some d) (hp : prepare env d p.log = .ok pr) (hrun : runOn grid fuel env jsonFile folder p = some (.ok (), q)) :
    ∃ w, simulateOn grid fuel pr.integrator pr.world = some (.ok (), w) ∧ q.log = w.log := by
  rw [runOn_finish grid fuel env jsonFile folder p d hd pr hp] at hrun
  cases hsim : simulateOn grid fuel pr.integrator pr.world with
  | none => rw [hsim] at hrun; cases hrun
  | some o =>
    obtain ⟨o, w⟩ := o
    rw [hsim] at hrun
    cases o with
    | error e => cases hrun
    | ok _ =>
      unfold outcome finishRun at hrun
      dsimp only [Option.map_some] at hrun
      refine ⟨w, rfl, ?_⟩
      cases hw : writeValues w.log with
      | error e => rw [hw] at hrun; cases hrun
      | ok t =>
        rw [hw] at hrun
        cases t with
        | none => rw [← (Prod.mk.inj (Option.some.inj hrun)).2]
        | some t => rw [← (Prod.mk.inj (Option.some.inj hrun)).2]

/-- **C122** on configuration files. Two configurations that differ in the surroundings only, both with sensible parameters and the models of C121; the second has the harsher
    surroundings. Both runs end normally, the first showing the depth `D` at the vent; at that depth the lava's yield strength is below the basal stress; the step is small for
    the first run. Then wherever both runs recorded a number the one in harsher surroundings is not hotter, not less crystallised and not faster; and if the first always
    loses heat the second does not go farther. -/
theorem C122_run (n n' : Nat) (env : Env ℝ) (jsonFile folder : String) (p p' : Proc ℝ)
    (d d' : Json ℝ) (hd : lookup p.json (env.canon jsonFile) = some d) (hd' : lookup p'.json (env.canon jsonFile) = some d')
    (hlog : p.log = []) (hlog' : p'.log = []) (h : SameButSurroundings d d')
    (pr pr' : Prepared ℝ) (hprep : prepare env d [] = .ok pr) (hprep' : prepare env d' [] = .ok pr')
    (hg : Sensible pr.integrator pr.world.terrain pr.world.st.pos) (hg' : Sensible pr'.integrator pr'.world.terrain pr'.world.st.pos)
    (hv : AtVent pr.integrator pr.world) (k : ℝ) (he : Everyday pr.integrator pr.world.st.pos k) (he' : Everyday pr'.integrator pr'.world.st.pos k)
    (hh : Harsher pr.integrator.models pr'.integrator.models) (hne : pr.world.terrain.effusionRateInit ≠ 0)
    (hmass : pr.integrator.massConservation = true → ∀ s : FlowState ℝ, pr.world.st.pos ≤ s.pos →
      pr.integrator.models.lava.density pr.world.st ≤ pr.integrator.models.lava.density s)
    (q q' : Proc ℝ) (hrun : run n env jsonFile folder p = some (.ok (), q)) (hrun' : run n' env jsonFile folder p' = some (.ok (), q')) (D : ℝ)
    (hD : loggedNum q.log pr.world.st.pos "channel_depth" = some D)
    (hvent : pr.integrator.models.lava.yieldNotCompatible { pr.world.terrain with depth := D } pr.world.st = .ok false)
    (hsmall : StepIsSmall pr.integrator D (pr.world.st.temp - pr.integrator.models.lava.buffer) k q.log) :
    (∀ x T T', BothShow q.log q'.log "core_temperature" x T T' → T' ≤ T) ∧
    (∀ x phi phi', BothShow q.log q'.log "crystal_fraction" x phi phi' → phi ≤ phi') ∧
    (∀ x v v', BothShow q.log q'.log "mean_velocity" x v v' → v' ≤ v) ∧
    ((∀ x y, loggedNum q.log x "heat_budget" = some y → 0 < y) → ∀ x, CompleteRow q'.log x → CompleteRow q.log x) := by
  obtain ⟨hs, ew, _⟩ := C122_same_lava h hprep hprep'
  have hl := noStrain_independent he.strain
  obtain ⟨_, _, _, f4, f5, f6, f7, ⟨sz, f8, f8'⟩, _, _⟩ := prepared_facts hprep
  obtain ⟨_, _, _, _, _, _, g7, ⟨sz', g8, g8'⟩, _, _⟩ := prepared_facts hprep'
  obtain ⟨pr1, w1, w, t, hp, hi, hw1, hDne, hsim, hql, hwv, hqr⟩ := run_depth hd hlog f7 f8 f8' hg.step hrun hD
  rw [hlog, hprep] at hp
  cases hp
  obtain ⟨w', hsim', hql'⟩ := run_log hd' (by rw [hlog']; exact hprep') hrun'
  rw [ew] at hsim' hg' he'
  have hi2 := hi
  rw [search_of_rate depthGrid _ pr.world hne] at hi2
  obtain ⟨i, v, z, hk, hvi, _, _, e1⟩ := search_found _ hl depthGrid grid_nonempty _ _ hi2
  have hd0 : 0 < (depthGrid (α := ℝ)).getD i 0 := by
    rw [List.getD_eq_getElem?_getD, List.getElem?_eq_getElem hk, Option.getD_some]
    exact grid_pos _ (List.getElem_mem hk)
  generalize (depthGrid (α := ℝ)).getD i 0 = di at hd0 hvi e1
  have tb : w1.terrain = { pr.world.terrain with depth := di } := by rw [e1]
  have sb : w1.st = { pr.world.st with strain := z } := by rw [e1]
  have eD : di = D := by rw [← hw1, tb]
  have hvw : AtVent pr.integrator w1 := by
    refine ⟨by rw [sb]; exact hv.crystals, by rw [sb]; exact hv.hot, ?_, ?_, by rw [tb]; exact hd0, by rw [sb, tb]; exact hv.ground⟩
    · rw [sb]; exact (notCompatible_strain _ _ _).trans hv.room
    · rw [sb]; exact fun k => hv.off ((atPacking_strain _ pr.world.st z).mp k)
  have hventw : pr.integrator.models.lava.yieldNotCompatible w1.terrain w1.st = .ok false := by
    rw [← eD, ← tb] at hvent
    rw [← hvent, sb]
    exact congrArg₂ (fun (a b : Except Err ℝ) => a.bind fun x => b.bind fun y => pure (leB y x)) (yield_strain pr.integrator.models.lava.yld pr.world.st z)
      (basal_strain pr.integrator.models.lava w1.terrain pr.world.st z)
  have hm : pr.integrator.massConservation = true → ∃ c, MassFrom pr.integrator w1 pr.world.st.pos c := by
    intro h
    refine ⟨pr.integrator.models.lava.density pr.world.st, density_pos hg le_rfl, hmass h, fun v2 y h1 => ?_⟩
    rw [sb, tb, meanVelocity_strain _ hl, hvi, Except.ok.injEq, Prod.mk.injEq] at h1
    have hfr : w1.fluxRate = some (v * pr.world.terrain.width * di * pr.integrator.models.lava.density pr.world.st) := by rw [e1]
    rw [hfr, h1.1, tb]
    generalize pr.integrator.models.lava.density pr.world.st = rho
    exact congrArg some (by ring)
  unfold simulateOn at hsim hsim'
  rw [hi] at hsim
  rw [hs.lava, hi] at hsim'
  dsimp only at hsim hsim'
  rw [hql, hql']
  rw [hql] at hsmall
  obtain ⟨c1, c2, c3, c4⟩ := C122_sensible pr.integrator pr'.integrator pr.world.st.pos k n n' w1 w w' hs
    (by rw [tb]; exact sensible_supplied hg pr.world.terrain.effusionRateInit _) (by rw [tb]; exact sensible_supplied hg' pr.world.terrain.effusionRateInit _) he he' hh hvw
    (by rw [sb]) (by rw [e1]; exact f4) (by rw [e1]; exact f5) hventw hm hsim hsim' (by rw [hw1, sb]; exact hsmall)
  exact ⟨c1, c2, c3, fun hq => (c4 hq).2⟩

end PyFlowGo
