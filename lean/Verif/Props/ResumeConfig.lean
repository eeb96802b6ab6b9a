import Verif.Props.Resume
/-
  C127 for two configuration files.
-/
set_option linter.unusedSectionVars false
namespace PyFlowGo
open Spec

section
variable {env : Env ℝ} {d d' : Json ℝ} (h : SameButVent d d')
include h

theorem vent_number {sec key : String} (hs : (sec, key) ∉ ventEntries) (x : ℝ) : NumberAt env d sec key x ↔ NumberAt env d' sec key x :=
  exists_congr fun v => and_congr_left fun _ => h.entry sec key v hs

theorem vent_selects {c : Choice} (hc : Selects d c) : Selects d' c := by
  have u : ∀ sec key v, (sec, key) ∉ ventEntries → EntryAt d sec key v → EntryAt d' sec key v := fun sec key v hs => (h.entry sec key v hs).mp
  unfold Selects at *
  obtain ⟨a1, a2, a3, a4, a5, a6, a7, a8, a9⟩ := hc
  refine ⟨u _ _ _ (by decide) a1, u _ _ _ (by decide) a2, u _ _ _ (by decide) a3, u _ _ _ (by decide) a4, u _ _ _ (by decide) a5, u _ _ _ (by decide) a6,
    u _ _ _ (by decide) a7, u _ _ _ (by decide) a8, ?_⟩
  obtain ⟨b1, b2, b3, b4, b5, b6⟩ := a9
  exact ⟨u _ _ _ (by decide) b1, u _ _ _ (by decide) b2, u _ _ _ (by decide) b3, u _ _ _ (by decide) b4, u _ _ _ (by decide) b5, u _ _ _ (by decide) b6⟩

/-- The lava, but for its eruption temperature, is read from entries that agree. -/
theorem vent_lava {c : Choice} {T : ℝ}
    (hb : (c.melt ≠ "basic" ∧ c.yld ≠ "basic") ∨ NumberAt env d "eruption_condition" "eruption_temperature" T) (hT : NumberAt env d' "eruption_condition" "eruption_temperature" T)
    {l : Lava ℝ} (hl : LavaFrom env d c l) : LavaFrom env d' c { l with eruptionT := T } := by
  have n := fun sec key hs x => vent_number (env := env) h (sec := sec) (key := key) hs x
  obtain ⟨a1, a2, a3, a4, a5, a6, a7, a8, a9, a10⟩ := hl
  have h1 : MeltFrom env d c.melt l.melt → MeltFrom env d' c.melt l.melt := by
    unfold MeltFrom; split <;> simp +decide only [n] <;> first | exact id | skip
    rename_i e
    rintro ⟨v, te, b1, b2, b3⟩
    rcases hb with hb | hb
    · exact absurd e hb.1
    · obtain rfl := number_unique b2 hb
      exact ⟨v, te, b1, hT, b3⟩
  have h2 : VesFrom env d c.ves l.ves ↔ VesFrom env d' c.ves l.ves := by
    unfold VesFrom; split <;> simp +decide only [n]
  have h3 : RelFrom env d l.ves l.melt c.rel l.rel ↔ RelFrom env d' l.ves l.melt c.rel l.rel := by
    unfold RelFrom; split <;> simp +decide only [n]
  have h4 : BubFrom env d l.ves l.melt l.rel c.bub l.bub ↔ BubFrom env d' l.ves l.melt l.rel c.bub l.bub := by
    unfold BubFrom; split <;> simp +decide only [n]
  have h5 : YieldFrom env d c.yld l.yld → YieldFrom env d' c.yld l.yld := by
    unfold YieldFrom
    split
    · rename_i e
      rintro ⟨te, b2, b3⟩
      rcases hb with hb | hb
      · exact absurd e hb.2
      · obtain rfl := number_unique b2 hb
        exact ⟨te, hT, b3⟩
    · rintro ⟨tl, te, b1, _, b3⟩; exact ⟨tl, T, (n _ _ (by decide) _).mp b1, hT, b3⟩
    · rintro ⟨tl, te, b1, _, b3⟩; exact ⟨tl, T, (n _ _ (by decide) _).mp b1, hT, b3⟩
    · rintro ⟨te, _, b3⟩; exact ⟨T, hT, b3⟩
    · rintro ⟨te, _, b3⟩; exact ⟨T, hT, b3⟩
    · exact id
  obtain ⟨y, hy⟩ := a10
  exact ⟨h1 a1, h2.mp a2, h3.mp a3, h4.mp a4, h5 a5, hT, (n _ _ (by decide) _).mp a7, (n _ _ (by decide) _).mp a8, (n _ _ (by decide) _).mp a9,
    y, (n _ _ (by decide) _).mp hy⟩

/-- The crystals grow alike. -/
theorem vent_cryst {c : Choice} (hc : Selects d c) {x T φ W D : ℝ} (hv : VentAt env d d' x T φ W D) {m : CrystModel ℝ} (hm : CrystFrom env d c.cryst m) :
    ∃ m', CrystFrom env d' c.cryst m' ∧ SameGrowth m m' := by
  have n := fun sec key hs x => vent_number (env := env) h (sec := sec) (key := key) hs x
  have t : (∃ v, TopEntry d "melts_look-up_table" v) ↔ ∃ v, TopEntry d' "melts_look-up_table" v := exists_congr fun v => h.top _ (by simp) (by decide) v
  have hsel := hc.1
  unfold CrystFrom at hm ⊢
  split at hm
  · rename_i e
    rw [e] at hsel
    obtain ⟨f, g, ts, te, b1, b2, b3, b4, rfl⟩ := hm
    obtain ⟨te', ts', g', g2, c1, c2, c3, c4, hne, hne', hg⟩ := hv.basic hsel
    obtain rfl := number_unique c1 b4
    obtain rfl := number_unique c2 b3
    obtain rfl := number_unique c3 b2
    refine ⟨.basic φ g2 ts' T, ⟨φ, g2, ts', T, hv.crystals, c4, (n _ _ (by decide) _).mp c2, hv.temperature, rfl⟩, fun s => ?_, rfl⟩
    show PyNum.div g2 (T - ts') = PyNum.div g' (te' - ts')
    rw [div_of_ne (sub_ne_zero.mpr hne'), div_of_ne (sub_ne_zero.mpr hne), hg]
  · obtain ⟨f, cd, r1, r2, ts, te, b1, b2, b3, b4, b5, b6, rfl⟩ := hm
    exact ⟨.bimodal φ cd r1 r2 ts, ⟨φ, cd, r1, r2, ts, T, hv.crystals, (n _ _ (by decide) _).mp b2, (n _ _ (by decide) _).mp b3, (n _ _ (by decide) _).mp b4,
      (n _ _ (by decide) _).mp b5, hv.temperature, rfl⟩, fun s => rfl, rfl⟩
  · obtain ⟨f, cd, r1, r2, ts, te, b1, b2, b3, b4, b5, b6, rfl⟩ := hm
    exact ⟨.bimodalFTemp φ cd r1 r2 ts, ⟨φ, cd, r1, r2, ts, T, hv.crystals, (n _ _ (by decide) _).mp b2, (n _ _ (by decide) _).mp b3, (n _ _ (by decide) _).mp b4,
      (n _ _ (by decide) _).mp b5, hv.temperature, rfl⟩, fun s => rfl, rfl⟩
  · obtain ⟨f, ts, te, b1, b2, b3, b4, rfl⟩ := hm
    refine ⟨.melts φ ts none, ⟨φ, ts, T, hv.crystals, (n _ _ (by decide) _).mp b2, hv.temperature, t.mp b4, rfl⟩, fun s => ?_, rfl⟩
    show PyNum.div (-(φ - φ)) 2.0 = PyNum.div (-(f - f)) 2.0
    rw [sub_self, sub_self]
  · exact hm.elim

/-- The other models are the same. -/
theorem vent_factory {c : Choice} (hc : Selects d c) {x T φ W D : ℝ}
    (hb : (c.melt ≠ "basic" ∧ c.yld ≠ "basic") ∨ NumberAt env d "eruption_condition" "eruption_temperature" T) (hv : VentAt env d d' x T φ W D)
    {m : Models ℝ} (hm : factory env d = .ok m) :
    ∃ cr, factory env d' = .ok { m with lava := { m.lava with eruptionT := T }, cryst := cr } ∧ SameGrowth m.cryst cr := by
  have n := fun sec key hs x => vent_number (env := env) h (sec := sec) (key := key) hs x
  obtain ⟨c', hc', x1, x2, x3, x4, x5, x6⟩ := (C55_models_come_from_the_configuration env d m).mp hm
  obtain rfl := selects_unique hc hc'
  obtain ⟨cr, hcr, hg⟩ := vent_cryst h hc hv x1
  have h2 : AirFrom env d m.air ↔ AirFrom env d' m.air := by
    unfold AirFrom; simp +decide only [n]
  have h4 : CoverFrom env d c.cover m.cover ↔ CoverFrom env d' c.cover m.cover := by
    unfold CoverFrom; split <;> simp +decide only [n]
  have e := fun sec key hs v => h.entry sec key v hs
  have h5 : CrustFrom env d c.crust m.crust ↔ CrustFrom env d' c.crust m.crust := by
    unfold CrustFrom; split <;> simp +decide only [n, e]
  have h6 : FluxesFrom env d c m.fluxes ↔ FluxesFrom env d' c m.fluxes := by
    have hr : ∀ l, RadiationFrom env d c.radiation l ↔ RadiationFrom env d' c.radiation l := by
      intro l; unfold RadiationFrom; split <;> simp +decide only [n]
    unfold FluxesFrom
    simp +decide only [n, hr]
  exact ⟨cr, (C55_models_come_from_the_configuration env d' _).mpr ⟨c, vent_selects h hc, hcr, h2.mp x2, vent_lava h hb hv.temperature x3, h4.mp x4, h5.mp x5,
    h6.mp x6⟩, hg⟩

/-- What a run prepares from the second configuration. -/
theorem vent_prepare {c : Choice} (hc : Selects d c) {x T φ W D : ℝ}
    (hb : (c.melt ≠ "basic" ∧ c.yld ≠ "basic") ∨ NumberAt env d "eruption_condition" "eruption_temperature" T) (hv : VentAt env d d' x T φ W D)
    (hW : W ≠ 0) (hD : D ≠ 0) {log : Log (Cell ℝ)} {pr : Prepared ℝ} (hp : prepare env d log = .ok pr) :
    ∃ pr', prepare env d' log = .ok pr' ∧ BeginsAt pr pr' x T φ W D := by
  have n := fun sec key hs x => (vent_number (env := env) h (sec := sec) (key := key) hs x).mp
  have tp : ∀ k v, k ∈ usedTop → k ≠ "effusion_rate_init" → TopEntry d k v → TopEntry d' k v :=
    fun k v hk hn => (h.top k (List.mem_cons_of_mem _ hk) hn v).mp
  obtain ⟨⟨a1, a2, a3, ⟨sz, a4, a4'⟩, inner, a5, a6⟩, ⟨t0, path, rows, ⟨b1, b2, b3, b4, b5, ⟨sm, b6, b6'⟩, b7, b8, b9⟩, b10, b11, b12, b13⟩, hm, hdx, hmass, hpos, htime,
    hcr, hT, hD0, hW0, hst, hlog, hef, hfl, hit, hfin⟩ := (C55_run_starts_from_the_configuration env d log pr).mp hp
  obtain ⟨cr, hm', hg⟩ := vent_factory h hc hb hv hm
  obtain ⟨v, hv1, hv2⟩ := hv.rate
  obtain ⟨inner', hi'⟩ : ∃ inner', TopEntry d' "terrain_conditions" (.obj inner') := by
    obtain ⟨v, ⟨top, inner', g1, g2, _⟩, _⟩ := hv.depth
    exact ⟨inner', top, g1, g2⟩
  have raw : ∀ (d : Json ℝ) inner, TopEntry d "terrain_conditions" (.obj inner) →
      rawMassConservation d = .ok ((lookup inner "mass_conservation").getD (.bool false)) := by
    intro d inner hi
    unfold rawMassConservation
    rw [(get_ok_iff d _ _).mpr hi, ok_bind]
  have hsw := same_switch (fun v => h.entry _ _ v (by decide)) _ _ (raw d inner a5) (raw d' inner' hi')
  let pr' : Prepared ℝ :=
    { cfg := { pr.cfg with rate := v }
      integrator := { pr.integrator with models := { pr.integrator.models with lava := { pr.integrator.models.lava with eruptionT := T }, cryst := cr } }
      world := { pr.world with terrain := { pr.world.terrain with width := W, depth := D, effusionRateInit := 0 }
                               st := { pr.world.st with pos := x, temp := T, crystal := φ, strain := 3 * 0 / D ^ 2 / W } } }
  refine ⟨pr', (C55_run_starts_from_the_configuration env d' log pr').mpr ⟨?_, ?_, hm', hdx, hmass, hv.position, n _ _ (by decide) _ htime, hv.crystals, hv.temperature, hD, hW,
    rfl, hlog, hef, hfl, hit, hfin⟩, ⟨rfl, rfl, ⟨T, cr, rfl, hg⟩, rfl, rfl, rfl, rfl⟩⟩
  · exact ⟨hv1, tp _ _ (by simp [usedTop]) (by decide) a2, tp _ _ (by simp [usedTop]) (by decide) a3, ⟨sz, tp _ _ (by simp [usedTop]) (by decide) a4, a4'⟩, inner', hi', by
      show pr.cfg.massConservation = _
      rw [a6, hsw]⟩
  · refine ⟨{ t0 with width := W, depth := D, effusionRateInit := 0 }, path, rows, ⟨⟨v, hv1, hv2⟩, hv.depth, hv.width, n _ _ (by decide) _ b4, n _ _ (by decide) _ b5,
      ⟨sm, (h.entry _ _ _ (by decide)).mp b6, b6'⟩, fun hs => n _ _ (by decide) _ (b7 hs), b8, b9⟩, b10, b11, b12, ?_⟩
    show Terrain.readSlope _ _ = .ok ({ pr.world.terrain with width := W, depth := D, effusionRateInit := 0 } : Terrain ℝ)
    generalize pr.world.terrain = tt at b13
    unfold Terrain.readSlope at *
    simp only [bind_ok_iff] at *
    obtain ⟨a, h1, b13⟩ := b13
    refine ⟨a, h1, ?_⟩
    split
    · rename_i hb
      rw [if_pos hb] at b13
      simp only [bind_ok_iff, pure_ok_iff] at b13 ⊢
      obtain ⟨b, h2, sp, h3, rfl⟩ := b13
      exact ⟨b, h2, sp, h3, rfl⟩
    · rename_i hb
      rw [if_neg hb] at b13
      simp only [bind_ok_iff, pure_ok_iff] at b13 ⊢
      obtain ⟨b, h2, sp, h3, rfl⟩ := b13
      exact ⟨b, h2, sp, h3, rfl⟩

end

/-- **C127** on configuration files. A run (models of melt viscosity and yield strength other than "basic", rheology that does not read the strain rate, crust
    "constant" or "field", positive step, no mass conservation) ended normally and its log shows at `x` the temperature `T`, the crystal fraction `φ`, the
    width `W` and the depth `D`. A second configuration differs only in what leaves the vent and has these five numbers there. Then its run ends normally, and the
    first log is some rows upflow of `x` followed by the second log. -/
theorem C127_config (grid : List ℝ) (fuel : Nat) (env : Env ℝ) (jsonFile jsonFile' folder folder' : String) (p q p' : Proc ℝ) (d d' : Json ℝ)
    (hd : lookup p.json (env.canon jsonFile) = some d) (hd' : lookup p'.json (env.canon jsonFile') = some d')
    (c : Choice) (hc : Selects d c) (hmelt : c.melt ≠ "basic") (hyld : c.yld ≠ "basic") (hrel : c.rel ≠ "bll" ∧ c.rel ≠ "mader") (hbub : c.bub ≠ "mader")
    (hcrust : c.crust ≠ "hon" ∧ c.crust ≠ "bimodal")
    (hmass : ∀ v, EntryAt d "terrain_conditions" "mass_conservation" v → v = .bool false)
    (sz : Json ℝ) (hsz : TopEntry d "step_size" sz) (dx : ℝ) (hdx : sz.toFloat env = .ok dx) (hpos : 0 < dx)
    (hrun : runOn grid fuel env jsonFile folder (newRunner p) = some (.ok (), q))
    (x T φ W D : ℝ) (hT : loggedNum q.log x "core_temperature" = some T) (hφ : loggedNum q.log x "crystal_fraction" = some φ)
    (hW : loggedNum q.log x "channel_width" = some W) (hD : loggedNum q.log x "channel_depth" = some D)
    (h : SameButVent d d') (hv : VentAt env d d' x T φ W D) :
    ∃ q', runOn grid fuel env jsonFile' folder' (newRunner p') = some (.ok (), q') ∧
      ∃ upflow, q.log = upflow ++ q'.log ∧ ∀ r ∈ upflow, ∃ y < x, r.get? "position" = some (.num y) := by
  obtain ⟨pr, hp⟩ : ∃ pr, prepare env d [] = .ok pr := by
    cases hp : prepare env d [] with
    | ok pr => exact ⟨pr, rfl⟩
    | error e =>
      unfold runOn newRunner at hrun
      dsimp only [Log.clear] at hrun
      rw [hd] at hrun
      dsimp only at hrun
      rw [hp] at hrun
      cases hrun
  obtain ⟨_, _, _, hlog, hit, hfin, _, ⟨sz', e1, e2⟩, hm, inner, e3, e4⟩ := prepared_facts hp
  have hstep : 0 < pr.integrator.dx := by
    rw [topEntry_unique e1 hsz, hdx, Except.ok.injEq] at e2
    rw [← e2]; exact hpos
  have hmc : pr.integrator.massConservation = false := by
    rw [e4]
    cases hl : lookup inner "mass_conservation" with
    | none => rfl
    | some v =>
      have := hmass v (by obtain ⟨top, g1, g2⟩ := e3; exact ⟨top, inner, g1, g2, hl⟩)
      rw [this]; rfl
  have hcr : ¬ pr.integrator.models.crust.readsClock := by
    obtain ⟨c', hc', _, _, _, _, x5, _⟩ := (C55_models_come_from_the_configuration env d _).mp hm
    obtain rfl := selects_unique hc hc'
    unfold CrustFrom at x5
    split at x5
    · obtain ⟨t, _, e⟩ := x5; rw [e]; exact fun h => h
    · rename_i e; exact absurd e hcrust.1
    · rename_i e; exact absurd e hcrust.2
    · obtain ⟨_, _, _, _, _, _, _, _, e⟩ := x5; rw [e]; exact fun h => h
    · exact x5.elim
  obtain ⟨hW0, hD0⟩ : W ≠ 0 ∧ D ≠ 0 := by
    obtain ⟨w1, w, k1, k2, _, hloop, hq⟩ := run_started hd hp hrun
    rw [hq] at hT hW hD
    obtain ⟨_, g1, g2⟩ := loop_depth _ hstep fuel w1 w k1 k2 hloop x T D hT hD
    exact ⟨g2 W hmc hW, g1⟩
  obtain ⟨pr', hp', hb⟩ := vent_prepare h hc (.inl ⟨hmelt, hyld⟩) hv hW0 hD0 hp
  exact C127_run grid fuel env env jsonFile jsonFile' folder folder' p q p' d d' pr pr' hd hd' hp hp' hstep hmc (strain_free_choice hc hrel hbub hm) hcr hrun
    x T φ W D hT hφ hW hD hb

end PyFlowGo
