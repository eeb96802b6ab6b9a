import Verif.Props.ThinnerExample
/-
  C136: denser lava, or lava that gives off more heat when it crystallises, is nowhere colder, nowhere slower, and does not stop earlier.
-/
set_option linter.unusedSectionVars false
namespace PyFlowGo
open Spec

theorem lighter_sensible {g : Integrator ℝ} {T : Terrain ℝ} {x0 dre lat : ℝ} (h : Sensible g T x0) (hd : 0 < dre) (hl : 0 < lat) : Sensible (withDensityAndHeat g dre lat) T x0 where
  step := h.step
  gravity := h.gravity
  width := h.width
  slopes := h.slopes
  density := hd
  latent := hl
  vesicles := h.vesicles
  melt := h.melt
  crystals := h.crystals
  bubbles := h.bubbles
  rate := h.rate
  cover := h.cover
  crust := h.crust
  air := h.air
  molten := h.molten
  conduction := h.conduction

/-- **C136**, for sensible set-ups. Take a sensible set-up (C117) with the models C134 allows, and the same with a dense-rock density and a latent heat that are positive and not larger. Let both
    flows start at the same place in the same channel with the same temperature and crystals, and let the lighter lava be able to flow there; with mass conservation let the mass rates
    stand for volume rates times densities in the proportion of the dense-rock densities. If the step is small for the run of the denser lava, then wherever both tables show a number the
    denser lava shows a core temperature that is not lower, a crystal fraction that is not higher and a velocity that is not lower. And if the flow of the denser lava always loses heat it
    runs at least as far, and its table is complete wherever the other is. -/
theorem C136_sensible (g : Integrator ℝ) (dre lat x0 r : ℝ) (n n' : Nat) (wa wb a b : World ℝ)
    (ha : Sensible g wa.terrain x0) (he : Everyday g x0 r) (hd0 : 0 < dre) (hd : dre ≤ g.models.lava.densityDre) (hl0 : 0 < lat) (hl : lat ≤ g.models.lava.latentHeat)
    (hT : wb.terrain = wa.terrain) (hvb : AtVent g wb) (hx : x0 ≤ wa.st.pos) (hsame : SameVent wa.st wb.st)
    (hla : wa.log = []) (hlb : wb.log = []) (hia : wa.iteration = 0) (hib : wb.iteration = 0)
    (hvent : (withDensityAndHeat g dre lat).models.lava.yieldNotCompatible wb.terrain wb.st = .ok false)
    (hmass : g.massConservation = true → ∃ c c', c * dre = c' * g.models.lava.densityDre ∧ MassFrom g wa x0 c ∧ MassFrom (withDensityAndHeat g dre lat) wb x0 c')
    (hrun : runLoop g n wa = some (.ok (), a)) (hrun' : runLoop (withDensityAndHeat g dre lat) n' wb = some (.ok (), b))
    (hsmall : StepIsSmall g wa.terrain.depth (wa.st.temp - g.models.lava.buffer) r a.log) :
    (∀ x T T', BothShow a.log b.log "core_temperature" x T T' → T' ≤ T) ∧
    (∀ x phi phi', BothShow a.log b.log "crystal_fraction" x phi phi' → phi ≤ phi') ∧
    (∀ x v v', BothShow a.log b.log "mean_velocity" x v v' → v' ≤ v) ∧
    (wa.finished = false → (∀ x q, loggedNum a.log x "heat_budget" = some q → 0 < q) →
      b.st.pos ≤ a.st.pos ∧ ∀ x, CompleteRow b.log x → CompleteRow a.log x) := by
  have hsteep : Steeper wb.st.pos wa.terrain wb.terrain := by
    rw [hT]
    refine ⟨rfl, le_rfl, fun x y y' _ h h' _ => ?_⟩
    rw [h, Except.ok.injEq] at h'
    rw [h']
  have hb : Sensible (withDensityAndHeat g dre lat) wb.terrain x0 := by
    rw [hT]; exact lighter_sensible ha hd0 hl0
  have hvb' : AtVent (withDensityAndHeat g dre lat) wb := ⟨hvb.crystals, hvb.hot, hvb.room, hvb.off, hvb.depth, hvb.ground⟩
  refine gentler_sensible g dre lat g.models.lava.melt g.models.lava.rel g.models.lava.bub g.models.lava.yld x0 r n n' wa wb a b ha hb he he.strain ?_ hd hl hsteep hvb' hx hsame hla hlb hia hib
    hvent hmass hrun hrun' hsmall
  refine ⟨fun s _ _ _ h1 h2 => ⟨h1, h2⟩, fun s mu mu' _ _ _ _ _ h1 h2 => ?_, fun s t t' _ _ _ h1 h2 => ?_⟩
  · have h2 : g.models.lava.bulkViscosity s = .ok mu' := h2
    rw [h1, Except.ok.injEq] at h2
    exact h2.le
  · have h2 : g.models.lava.yieldStrength s = .ok t' := h2
    rw [h1, Except.ok.injEq] at h2
    exact h2.le

/-- **C134, C135 and C136 together**: a lava that is nowhere thicker or stronger, not lighter, with no less latent heat, on ground that is nowhere less steep. The other material has the dense-rock
    density `dre`, the latent heat `lat` and the rheology `melt`, `rel`, `bub`, `yld`; everything else of the two set-ups is the same. Then the first flow is nowhere colder, nowhere richer in
    crystals, nowhere slower and does not stop earlier. -/
theorem C136_together (g : Integrator ℝ) (dre lat : ℝ) (melt : MeltModel ℝ) (rel : RelModel ℝ) (bub : BubModel ℝ) (yld : YieldModel ℝ) (x0 r : ℝ) (n n' : Nat) (wa wb a b : World ℝ)
    (ha : Sensible g wa.terrain x0) (hb : Sensible (withMaterial g dre lat melt rel bub yld) wb.terrain x0) (he : Everyday g x0 r)
    (hn' : NoStrainRate (withMaterial g dre lat melt rel bub yld).models.lava)
    (hthin : NotThicker g.models.cryst.solidTemperature x0 g.models.lava (withMaterial g dre lat melt rel bub yld).models.lava)
    (hdre : dre ≤ g.models.lava.densityDre) (hlat : lat ≤ g.models.lava.latentHeat) (hsteep : Steeper wb.st.pos wa.terrain wb.terrain)
    (hvb : AtVent (withMaterial g dre lat melt rel bub yld) wb) (hx : x0 ≤ wa.st.pos) (hsame : SameVent wa.st wb.st)
    (hla : wa.log = []) (hlb : wb.log = []) (hia : wa.iteration = 0) (hib : wb.iteration = 0)
    (hvent : (withMaterial g dre lat melt rel bub yld).models.lava.yieldNotCompatible wb.terrain wb.st = .ok false)
    (hmass : g.massConservation = true →
      ∃ c c', c * dre = c' * g.models.lava.densityDre ∧ MassFrom g wa x0 c ∧ MassFrom (withMaterial g dre lat melt rel bub yld) wb x0 c')
    (hrun : runLoop g n wa = some (.ok (), a)) (hrun' : runLoop (withMaterial g dre lat melt rel bub yld) n' wb = some (.ok (), b))
    (hsmall : StepIsSmall g wa.terrain.depth (wa.st.temp - g.models.lava.buffer) r a.log) :
    (∀ x T T', BothShow a.log b.log "core_temperature" x T T' → T' ≤ T) ∧
    (∀ x phi phi', BothShow a.log b.log "crystal_fraction" x phi phi' → phi ≤ phi') ∧
    (∀ x v v', BothShow a.log b.log "mean_velocity" x v v' → v' ≤ v) ∧
    (wa.finished = false → (∀ x q, loggedNum a.log x "heat_budget" = some q → 0 < q) →
      b.st.pos ≤ a.st.pos ∧ ∀ x, CompleteRow b.log x → CompleteRow a.log x) :=
  gentler_sensible g dre lat melt rel bub yld x0 r n n' wa wb a b ha hb he hn' hthin hdre hlat hsteep hvb hx hsame hla hlb hia hib hvent hmass hrun hrun' hsmall

/-- **C136 for runs**: two configurations with an effusion rate of zero and without mass conservation, with the same terrain and the same start, whose models differ in the dense-rock density
    and the latent heat only. -/
theorem C136_run (n n' : Nat) (env env' : Env ℝ) (jsonFile folder : String) (p p' : Proc ℝ)
    (d d' : Json ℝ) (hd : lookup p.json (env.canon jsonFile) = some d) (hd' : lookup p'.json (env'.canon jsonFile) = some d') (hlog : p.log = []) (hlog' : p'.log = [])
    (pr pr' : Prepared ℝ) (hprep : prepare env d [] = .ok pr) (hprep' : prepare env' d' [] = .ok pr')
    (dre lat : ℝ) (hg' : pr'.integrator = withDensityAndHeat pr.integrator dre lat)
    (hdre0 : 0 < dre) (hdre : dre ≤ pr.integrator.models.lava.densityDre) (hl0 : 0 < lat) (hl : lat ≤ pr.integrator.models.lava.latentHeat)
    (hT : pr'.world.terrain = pr.world.terrain) (hsame : SameVent pr.world.st pr'.world.st)
    (hrate : pr.world.terrain.effusionRateInit = 0) (hmass : pr.integrator.massConservation = false)
    (ha : Sensible pr.integrator pr.world.terrain pr.world.st.pos)
    (r : ℝ) (he : Everyday pr.integrator pr.world.st.pos r)
    (hv : AtVent pr.integrator pr'.world) (hvent : pr'.integrator.models.lava.yieldNotCompatible pr'.world.terrain pr'.world.st = .ok false)
    (q q' : Proc ℝ) (hrun : run n env jsonFile folder p = some (.ok (), q)) (hrun' : run n' env' jsonFile folder p' = some (.ok (), q'))
    (hsmall : StepIsSmall pr.integrator pr.world.terrain.depth (pr.world.st.temp - pr.integrator.models.lava.buffer) r q.log) :
    (∀ x T T', BothShow q.log q'.log "core_temperature" x T T' → T' ≤ T) ∧
    (∀ x phi phi', BothShow q.log q'.log "crystal_fraction" x phi phi' → phi ≤ phi') ∧
    (∀ x v v', BothShow q.log q'.log "mean_velocity" x v v' → v' ≤ v) ∧
    ((∀ x y, loggedNum q.log x "heat_budget" = some y → 0 < y) → ∀ x, CompleteRow q'.log x → CompleteRow q.log x) := by
  obtain ⟨_, _, _, f4, f5, f6, _⟩ := prepared_facts hprep
  obtain ⟨_, _, _, g4, g5, g6, _⟩ := prepared_facts hprep'
  obtain ⟨w, hsim, hql⟩ := run_log hd (by rw [hlog]; exact hprep) hrun
  obtain ⟨w', hsim', hql'⟩ := run_log hd' (by rw [hlog']; exact hprep') hrun'
  rw [open_rate _ _ _ _ hrate] at hsim
  rw [open_rate _ _ _ _ (by rw [hT]; exact hrate)] at hsim'
  rw [hg'] at hsim' hvent
  rw [hql] at hsmall
  rw [hql, hql']
  obtain ⟨c1, c2, c3, c4⟩ := C136_sensible pr.integrator dre lat pr.world.st.pos r n n' pr.world pr'.world w w' ha he hdre0 hdre hl0 hl hT hv le_rfl hsame f4 g4 f5 g5
    hvent (fun h => by rw [hmass] at h; cases h) hsim hsim' hsmall
  exact ⟨c1, c2, c3, fun h => (c4 f6 h).2⟩

/-- The template with rain as its only heat loss, and the same with a density of 2500 instead of 2970 and a latent heat of 300000 instead of 350000: both runs end normally and have a first
    row, and C136 applies to them. -/
example : ∃ (g : Integrator ℝ) (w a b : World ℝ),
    runLoop g 3000 w = some (.ok (), a) ∧ runLoop (withDensityAndHeat g 2500 300000) 3000 w = some (.ok (), b) ∧
    g.models.lava.densityDre = 2970 ∧ g.models.lava.latentHeat = 350000 ∧ CompleteRow a.log 0 ∧ CompleteRow b.log 0 ∧ (∀ x, CompleteRow b.log x → CompleteRow a.log x) ∧
    (∀ x T T', BothShow a.log b.log "core_temperature" x T T' → T' ≤ T) ∧
    (∀ x phi phi', BothShow a.log b.log "crystal_fraction" x phi phi' → phi ≤ phi') ∧
    (∀ x v v', BothShow a.log b.log "mean_velocity" x v v' → v' ≤ v) := by
  have h2 : 2 ≤ (usableRows templateRows).length := by rw [template_usable]; simp
  have hasc : (usableRows templateRows).Pairwise fun a b => a.dist < b.dist := by rw [template_usable]; simp
  have hprep := rain_prepare rainEnv (.num 0) 0 rfl templateRows rfl h2 hasc
  have hin : ∃ r ∈ usableRows templateRows, ∃ r' ∈ usableRows templateRows, r.dist ≤ (0 : ℝ) ∧ (0 : ℝ) ≤ r'.dist := by
    rw [template_usable]; exact ⟨_, List.mem_cons_self, _, List.mem_cons_self, le_rfl, le_rfl⟩
  have hsteep : ∀ q ∈ usableRows templateRows, q.slopeDeg < 180 := by
    rw [template_usable]
    intro q hq
    simp only [List.mem_cons, List.not_mem_nil, or_false] at hq
    rcases hq with rfl | rfl <;> norm_num
  obtain ⟨_, ha⟩ := C117_template_sensible _ _ _ _ hprep rainChoice (exConfig_selects _ _) ⟨rfl, rfl, rfl, rfl, rfl, rfl⟩ (rain_physical _ _)
  have hva := template_vent _ _ _ hprep rainChoice (exConfig_selects _ _) ⟨rfl, rfl, rfl, rfl, rfl, rfl⟩ (rain_physical _ _)
    "slope.txt" templateRows (Or.inl rfl) rfl hin hsteep
  set pr := rainPrepared (.num 0) 0 templateRows with hpr
  have hb : Sensible (withDensityAndHeat pr.integrator 2500 300000) pr.world.terrain 0 := lighter_sensible ha (by norm_num) (by norm_num)
  have hvb : AtVent (withDensityAndHeat pr.integrator 2500 300000) pr.world := ⟨hva.crystals, hva.hot, hva.room, hva.off, hva.depth, hva.ground⟩
  have hev : Everyday pr.integrator 0 (0.896 / (1387.15 - 1237.15)) :=
    template_everyday rainModels rfl (by
      intro f hf
      have hf : f ∈ [(Flux.rain 7.93e-8 958 2.8e6 : Flux ℝ)] := hf
      rw [List.mem_singleton.mp hf]
      show (0 : ℝ) ≤ 7.93e-8 * 958 * 2.8e6
      norm_num) false 10 0
  have hrel : ∀ w : World ℝ, ¬ AtPacking w.st pr.integrator.models.lava.rel := fun w h => h
  obtain ⟨ra, a, h1, h1'⟩ := C117_loop pr.world ha le_rfl hva (fun h => absurd rfl h) (fun h => by cases h) 3000 (by norm_num) (by show ((30000 : ℝ) - 0) / 10 ≤ _; norm_num)
  obtain ⟨rb, b, h3, h3'⟩ := C117_loop pr.world hb le_rfl hvb (fun h => absurd rfl h) (fun h => by cases h) 3000 (by norm_num) (by show ((30000 : ℝ) - 0) / 10 ≤ _; norm_num)
  rcases h1' with ⟨rfl, _⟩ | ⟨_, h⟩
  swap
  · exact absurd h (hrel a)
  rcases h3' with ⟨rfl, _⟩ | ⟨_, h⟩
  swap
  · exact absurd h (hrel b)
  have hst : ∃ y, pr.world.st = ⟨0.104, 1387.15, 0, 1, y⟩ := ⟨_, rfl⟩
  obtain ⟨y0, hst⟩ := hst
  have hy : rainModels.lava.yieldStrength ⟨0.104, 1387.15, 0, 1, y0⟩ = .ok (yieldLaw (⟨0.104, 1387.15, 0, 1, 0⟩ : FlowState ℝ) (.basic 1387.15)) := C34_yield_laws _ _ (by norm_num)
  have hbs : (withDensityAndHeat pr.integrator 2500 300000).models.lava.basalStress pr.world.terrain ⟨0.104, 1387.15, 0, 1, y0⟩ = .ok (1.4 * (2500 * (1 - 0.64)) * 9.81 * Real.sin (degToRad 12)) := by
    unfold Lava.basalStress
    have hs := rain_vent_slope (.num 0) 0 1.4
    have hs : pr.world.terrain.slope 0 = .ok (degToRad 12) := hs
    dsimp only
    rw [hs, ok_bind]
    have hd : (withDensityAndHeat pr.integrator 2500 300000).models.lava.density ⟨0.104, 1387.15, 0, 1, y0⟩ = 2500 * (1 - 0.64) := by
      show (2500 : ℝ) * (1.0 - 0.64) = _
      norm_num
    rw [hd]
    rfl
  have hcompat : (withDensityAndHeat pr.integrator 2500 300000).models.lava.yieldNotCompatible pr.world.terrain pr.world.st = .ok false := by
    unfold Lava.yieldNotCompatible
    have hy' : (withDensityAndHeat pr.integrator 2500 300000).models.lava.yieldStrength ⟨0.104, 1387.15, 0, 1, y0⟩ = .ok (yieldLaw (⟨0.104, 1387.15, 0, 1, 0⟩ : FlowState ℝ) (.basic 1387.15)) := hy
    rw [hst, hy', ok_bind, hbs, ok_bind, pure_ok_iff, ← Bool.not_eq_true, leB_real, not_le]
    refine template_yield.trans_lt ?_
    have := rain_stress_ge
    linarith
  have hpos : ∀ (g : Integrator ℝ) (hg : Sensible g pr.world.terrain 0) (hv : AtVent g pr.world) (hc : g.models.lava.yieldNotCompatible pr.world.terrain pr.world.st = .ok false),
      ∃ v y, g.models.lava.meanVelocity pr.world.terrain pr.world.st = .ok (v, y) ∧ 0 < v := by
    intro g hg hv hc
    have hfit : Fit g pr.world.terrain 0 pr.world.st := ⟨le_rfl, hv.crystals, hv.hot, hv.room, hv.off, hv.ground⟩
    obtain ⟨k, hk⟩ := velocity_total hg hv.depth hfit
    obtain ⟨v, y, _, hvel, _, _⟩ := hk pr.world.st.strain
    have hvel : g.models.lava.meanVelocity pr.world.terrain pr.world.st = .ok (v, y) := hvel
    refine ⟨v, y, hvel, ?_⟩
    obtain ⟨t0, tb, mu, f1, f2, f3, n1, n2, n3, f4, _⟩ := (meanVelocity_ok_iff _ _ _ _ _).mp hvel
    obtain ⟨mu', m1, m2⟩ := viscosity_total hg hfit
    rw [f3, Except.ok.injEq] at m1
    unfold Lava.yieldNotCompatible at hc
    rw [f1, ok_bind, f2, ok_bind, pure_ok_iff, ← Bool.not_eq_true, leB_real, not_le] at hc
    have ht0 : 0 ≤ t0 := by
      obtain ⟨t1, y1, y2⟩ := yield_total (g := g) hv.crystals
      rw [y1, Except.ok.injEq] at f1
      rw [← f1]; exact y2
    rw [f4]
    exact bingham_pos hv.depth (by linarith) (by rw [m1]; exact m2) ht0 hc.ne
  obtain ⟨v, y, hv, hv0⟩ := hpos _ hb hvb hcompat
  have hrow := C119_first_row (g := withDensityAndHeat pr.integrator 2500 300000) pr.world b hb le_rfl hvb rfl rfl rfl rfl (fun _ _ => rfl) v y hv hv0
    (fun width qs hw h => by
      have hfl : (withDensityAndHeat pr.integrator 2500 300000).models.fluxes = [.rain 7.93e-8 958 2.8e6] := rfl
      rw [hfl] at h
      cases h with
      | cons a1 a2 =>
        cases a2
        have a1 : _ = 7.93e-8 * 958 * 2.8e6 * width := a1
        rw [a1]
        simp only [List.sum_cons, List.sum_nil, add_zero]
        positivity) 3000 h3
  obtain ⟨t1, t2⟩ := rain_table (g := pr.integrator) (a := 7.93e-8) (b := 958) (c := 2.8e6) (r := 0.896 / (1387.15 - 1237.15)) (x0 := 0) (by norm_num) rfl rfl pr.world a ha hev.rate
    le_rfl hva rfl rfl 3000 h1 (1387.15 - 140)
  obtain ⟨c1, c2, c3, c4⟩ := C136_sensible pr.integrator 2500 300000 0 _ 3000 3000 pr.world pr.world a b ha hev (by norm_num) (by show (2500 : ℝ) ≤ 2970; norm_num) (by norm_num)
    (by show (300000 : ℝ) ≤ 350000; norm_num) rfl hva le_rfl ⟨rfl, rfl, rfl⟩ rfl rfl rfl rfl hcompat (fun h => by cases h) h1 h3 t1
  obtain ⟨c5, c6⟩ := c4 rfl t2
  exact ⟨pr.integrator, pr.world, a, b, h1, h3, rfl, rfl, c6 _ hrow, hrow, c6, c1, c2, c3⟩

end PyFlowGo
