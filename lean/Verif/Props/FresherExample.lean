import Verif.Props.FresherConfig
import Verif.Props.ResumeExample
import Verif.Props.StrongerTemplate
/-
  C128 on configuration files: the template's lava under rain, with a tenth and with a fifth of crystals.
-/
set_option linter.unusedSectionVars false
namespace PyFlowGo
open Spec

/-- The numbers of the template, but for the crystal fraction. -/
noncomputable def crystalNum (φ : ℝ) (sec : String) (key : String) : ℝ :=
  if key = "crystal_fraction" then φ else templateNum sec key

noncomputable def crystalConfig (φ : ℝ) : Json ℝ := exConfigR (.int 0) (crystalNum φ) rainChoice

theorem crystal_number (env : Env ℝ) (φ : ℝ) (e : Req) (he : e ∈ allReq) : NumberAt env (crystalConfig φ) e.1 e.2 (crystalNum φ e.1 e.2) :=
  exConfig_number env _ _ e he

theorem crystal_same (φ : ℝ) : SameButVent (rainConfig (.int 0)) (crystalConfig φ) := by
  have hkey : ∀ e ∈ allReq, e ∉ ventEntries → e.2 ≠ "crystal_fraction" := by decide
  have hnum : ∀ sec key, (sec, key) ∉ ventEntries → (sec, key) ∈ allReq → templateNum sec key = crystalNum φ sec key := by
    intro sec key hn hm
    exact (if_neg (hkey _ hm hn)).symm
  exact ⟨fun sec key v hn => ⟨number_entry _ _ _ _ _ _ (fun hm => hnum _ _ hn hm) v, number_entry _ _ _ _ _ _ (fun hm => (hnum _ _ hn hm).symm) v⟩,
    fun k hk _ v => ⟨number_top _ templateNum (crystalNum φ) _ _ (by simp [crystalNum]) hk v, number_top _ (crystalNum φ) templateNum _ _ (by simp [crystalNum]) hk v⟩⟩

/-- The lava of the template can move with up to a fifth of crystals. -/
theorem crystal_moves (e φ y : ℝ) (h0 : 0 ≤ φ) (h2 : φ ≤ 0.2) :
    rainModels.lava.yieldNotCompatible (rainPrepared (.int 0) e templateRows).world.terrain ⟨φ, 1387.15, 0, 1, y⟩ = .ok false := by
  have hy : rainModels.lava.yieldStrength ⟨φ, 1387.15, 0, 1, y⟩ = .ok (yieldLaw ⟨φ, 1387.15, 0, 1, y⟩ (.basic 1387.15)) := C34_yield_laws _ _ h0
  have hb : rainModels.lava.basalStress (rainPrepared (.int 0) e templateRows).world.terrain ⟨φ, 1387.15, 0, 1, y⟩ = .ok (rainStress 1.4) :=
    rain_basal (.int 0) e 1.4 y
  unfold Lava.yieldNotCompatible
  rw [hy, ok_bind, hb, ok_bind, pure_ok_iff, ← Bool.not_eq_true, leB_real, not_le]
  have h3 : yieldLaw (⟨φ, 1387.15, 0, 1, y⟩ : FlowState ℝ) (.basic 1387.15) ≤ 261 := by
    show 0.01 * Real.exp (0.08 * (1387.15 - 1387.15) - 1) + 6500 * φ ^ (2.85 : ℝ) ≤ 261
    have h1 : Real.exp (0.08 * (1387.15 - 1387.15) - 1) ≤ 1 := Real.exp_le_one_iff.mpr (by norm_num)
    have h4 : φ ^ (2.85 : ℝ) ≤ 0.2 ^ (2.85 : ℝ) := Real.rpow_le_rpow h0 h2 (by norm_num)
    have h5 : (0.2 : ℝ) ^ (2.85 : ℝ) ≤ (0.2 : ℝ) ^ (2 : ℝ) := Real.rpow_le_rpow_of_exponent_ge (by norm_num) (by norm_num) (by norm_num)
    have h6 : (0.2 : ℝ) ^ (2 : ℝ) = 0.04 := by norm_num
    linarith
  have h4 := rain_stress_ge
  unfold rainStress
  linarith

/-- **C128** is not vacuous: the template with rain as its only heat loss and the effusion rate left open, with 0.104 and with 0.2 of crystals at the vent. Both runs end
    normally, both tables have a complete row at the vent, and the lava with fewer crystals runs at least as far. -/
example : ∃ q q' : Proc ℝ,
    runOn depthGrid 3000 rainEnv "a.json" "out" (newRunner ⟨[("a.json", rainConfig (.int 0))], [], []⟩) = some (.ok (), q) ∧
    runOn depthGrid 3000 rainEnv "b.json" "out" (newRunner ⟨[("b.json", crystalConfig 0.2)], [], []⟩) = some (.ok (), q') ∧
    CompleteRow q.log 0 ∧ CompleteRow q'.log 0 ∧ loggedNum q.log 0 "crystal_fraction" = some 0.104 ∧ loggedNum q'.log 0 "crystal_fraction" = some 0.2 ∧
    (∀ x y y', BothShow q.log q'.log "core_temperature" x y y' → y' ≤ y) ∧
    (∀ x y y', BothShow q.log q'.log "mean_velocity" x y y' → y' ≤ y) ∧
    (∀ x, CompleteRow q'.log x → CompleteRow q.log x) := by
  have h2 : 2 ≤ (usableRows templateRows).length := by rw [template_usable]; simp
  have hasc : (usableRows templateRows).Pairwise fun a b => a.dist < b.dist := by rw [template_usable]; simp
  have hzero : (Json.int 0 : Json ℝ).toFloat rainEnv = .ok 0 := by
    show Except.ok (((0 : Int) : ℝ)) = Except.ok 0
    rw [Int.cast_zero]
  have hprep := rain_prepare rainEnv (.int 0) 0 hzero templateRows rfl h2 hasc
  have hin : ∃ r ∈ usableRows templateRows, ∃ r' ∈ usableRows templateRows, r.dist ≤ (0 : ℝ) ∧ (0 : ℝ) ≤ r'.dist := by
    rw [template_usable]; exact ⟨_, List.mem_cons_self, _, List.mem_cons_self, le_rfl, le_rfl⟩
  have hsteep : ∀ q ∈ usableRows templateRows, q.slopeDeg < 180 := by
    rw [template_usable]
    intro q hq
    simp only [List.mem_cons, List.not_mem_nil, or_false] at hq
    rcases hq with rfl | rfl <;> norm_num
  obtain ⟨hrel, hg⟩ := C117_template_sensible _ _ _ _ hprep rainChoice (exConfig_selects _ _) ⟨rfl, rfl, rfl, rfl, rfl, rfl⟩ (rain_physical _ _)
  have hv := template_vent _ _ _ hprep rainChoice (exConfig_selects _ _) ⟨rfl, rfl, rfl, rfl, rfl, rfl⟩ (rain_physical _ _)
    "slope.txt" templateRows (Or.inl rfl) rfl hin hsteep
  set pr := rainPrepared (.int 0) 0 templateRows with hpr
  have hst : ∃ y, pr.world.st = ⟨0.104, 1387.15, 0, 1, y⟩ := ⟨_, rfl⟩
  obtain ⟨y0, hst⟩ := hst
  have N := crystal_number rainEnv 0.2
  have N0 := rain_number rainEnv (.int 0)
  have hvat : VentAt rainEnv (rainConfig (.int 0)) (crystalConfig 0.2) pr.world.st.pos 1387.15 0.2 pr.world.terrain.width pr.world.terrain.depth :=
    ⟨N ("lava_state", "position") (by decide), N ("eruption_condition", "eruption_temperature") (by decide), N ("lava_state", "crystal_fraction") (by decide),
      N ("terrain_conditions", "width") (by decide), N ("terrain_conditions", "depth") (by decide), ⟨_, ⟨_, rfl, rfl⟩, hzero⟩,
      fun _ => ⟨1387.15, 1237.15, 0.896, 0.896, N0 ("eruption_condition", "eruption_temperature") (by decide), N0 ("crystals_parameters", "solid_temperature") (by decide),
        N0 ("crystals_parameters", "crystals_grown_during_cooling") (by decide), N ("crystals_parameters", "crystals_grown_during_cooling") (by decide), by norm_num, by norm_num, rfl⟩⟩
  have hvb : AtVent pr.integrator { pr.world with st := { pr.world.st with temp := 1387.15, crystal := 0.2 } } := by
    refine ⟨by norm_num, ?_, ?_, by rw [hrel]; exact fun h => h, hv.depth, hv.ground⟩
    · show (1237.15 : ℝ) < 1387.15; norm_num
    · unfold Lava.notCompatible
      rw [hrel]
      unfold RelModel.notCompatible
      dsimp only
      rw [div_of_ne (by norm_num), ok_bind]
      congr 1
      rw [← Bool.not_eq_true, leB_real, not_le, one_lit, lt_div_iff₀ (by norm_num)]
      norm_num
  obtain ⟨pr', T0, cr, hp', hgi, hgrow, ht, h0, q1, q2, q3⟩ := vent_same_channel (crystal_same 0.2) (exConfig_selects _ _) hprep hvat ⟨_, ⟨_, rfl, rfl⟩, hzero⟩
    (.inr (N0 ("eruption_condition", "eruption_temperature") (by decide))) hg.width.ne' hv.depth.ne'
  have hvb' : AtVent pr.integrator pr'.world := atVent_same hvb ht q1 q2 q3
  obtain ⟨_, _, _, hlog, hit, hfin, _⟩ := prepared_facts hprep
  obtain ⟨_, _, _, hlog', hit', hfin', _⟩ := prepared_facts hp'
  have hp0 : pr.world.st.pos = 0 := rfl
  -- both loops end, with a row at the vent
  have both : ∀ w : World ℝ, w.terrain = pr.world.terrain → w.st.pos = 0 → w.st.temp = 1387.15 → w.st.crystal ≤ 0.2 → AtVent pr.integrator w → w.log = [] → w.iteration = 0 →
      w.finished = false → ∃ w', runLoop pr.integrator 3000 w = some (.ok (), w') ∧ CompleteRow w'.log 0 ∧ loggedNum w'.log 0 "crystal_fraction" = some w.st.crystal ∧
        StepIsSmall pr.integrator w.terrain.depth (1387.15 - 140) (0.896 / (1387.15 - 1237.15)) w'.log ∧ ∀ x y, loggedNum w'.log x "heat_budget" = some y → 0 < y := by
    intro w e1 e2 e3 e4 hvw hl hi hf
    have hgw : Sensible pr.integrator w.terrain 0 := by rw [e1]; exact hg
    obtain ⟨res, w', hloop, hend⟩ := C117_loop w hgw e2.ge hvw (fun h => absurd hi h) (fun h => by cases h) 3000 (by norm_num)
      (by rw [e1, e2]; show ((30000 : ℝ) - 0) / 10 ≤ _; norm_num)
    have hres : res = .ok () := by
      rcases hend with ⟨h, _⟩ | ⟨_, hpk⟩
      · exact h
      · exact hpk.elim
    subst hres
    have fw : Fit pr.integrator w.terrain 0 w.st := ⟨e2.ge, hvw.crystals, hvw.hot, hvw.room, hvw.off, hvw.ground⟩
    obtain ⟨ka, hka⟩ := velocity_total hgw hvw.depth fw
    obtain ⟨v, x, _, evel, _, _⟩ := hka w.st.strain
    have evel : pr.integrator.models.lava.meanVelocity w.terrain w.st = .ok (v, x) := evel
    have hmove : pr.integrator.models.lava.yieldNotCompatible w.terrain w.st = .ok false := by
      rw [e1, ← crystal_moves 0 w.st.crystal 0 hvw.crystals e4]
      exact vent_yield_same e2 e3 rfl
    obtain ⟨va', _, _, _, eva', _, _, _, _, hv0⟩ := driven_velocity (drives_self pr.integrator.models.lava w.terrain (fun x _ _ => 0 ≤ x) hvw.depth) e2.ge hvw.crystals
      (fun mu hm => by
        obtain ⟨m1, g1, g2⟩ := viscosity_total hgw fw
        rw [hm] at g1; injection g1 with g1; rw [g1]; exact g2) evel hmove
    have hrow := C119_first_row (g := pr.integrator) w w' hgw e2.ge hvw hl hf hi rfl (fun _ _ => rfl) v x evel hv0
      (fun width qs hw h => by
        have hfl : pr.integrator.models.fluxes = [.rain 7.93e-8 958 2.8e6] := rfl
        rw [hfl] at h
        cases h with
        | cons a1 a2 =>
          cases a2
          have a1 : _ = 7.93e-8 * 958 * 2.8e6 * width := a1
          rw [a1]
          simp only [List.sum_cons, List.sum_nil, add_zero]
          positivity) 3000 hloop
    rw [e2] at hrow
    obtain ⟨t1, t2⟩ := rain_table (g := pr.integrator) (a := 7.93e-8) (b := 958) (c := 2.8e6) (r := 0.896 / (1387.15 - 1237.15)) (by norm_num) rfl rfl w w' hgw
      ⟨by norm_num, fun s => by
        show PyNum.div (0.896 : ℝ) (1387.15 - 1237.15) = _
        rw [div_of_ne (by norm_num)]⟩ e2.ge hvw hl hi 3000 hloop (1387.15 - 140)
    refine ⟨w', hloop, hrow, ?_, t1, t2⟩
    obtain ⟨E, hE⟩ := ventRate_exists pr.integrator w hi
    obtain ⟨k, ws, d, t⟩ := run_table pr.integrator hgw.step 3000 w w' hl hloop E hE
    obtain ⟨z, hz⟩ := hrow
    obtain ⟨i, hi', hp⟩ := t.shown _ (step_not_part _ _ (by simp)) _ _ hz
    have hk : 0 < k := by omega
    have := (t.row 0 hk).crystal_fraction
    rwa [t.start, e2] at this
  obtain ⟨a, la, ra, ca, sa, ha⟩ := both pr.world rfl rfl rfl (by rw [hst]; norm_num) hv hlog hit hfin
  obtain ⟨b, lb, rb, cb, _, _⟩ := both pr'.world ht q1 q2 q3.le hvb' hlog' hit' hfin'
  have lb' : runLoop pr'.integrator 3000 pr'.world = some (.ok (), b) := by
    have := (erupted_mirror hgrow T0).loop 3000 pr'.world
    rw [← hgi] at this
    rw [show (id pr'.world : World ℝ) = pr'.world from rfl, lb] at this
    cases hh : runLoop pr'.integrator 3000 pr'.world with
    | none => rw [hh] at this; cases this
    | some o => rw [hh] at this; exact this.symm
  obtain ⟨q, g1, g2, _⟩ := C04_run_writes (fun c => beq_self_eq_true c) depthGrid 3000 rainEnv "a.json" "out" ⟨[("a.json", rainConfig (.int 0))], [], []⟩
    (rainConfig (.int 0)) _ a (by rw [lookup_cons_eq]; exact if_pos rfl) hprep (by rw [open_rate _ _ _ _ h0]; exact la)
  obtain ⟨q', k1, k2, _⟩ := C04_run_writes (fun c => beq_self_eq_true c) depthGrid 3000 rainEnv "b.json" "out" ⟨[("b.json", crystalConfig 0.2)], [], []⟩
    (crystalConfig 0.2) _ b (by rw [lookup_cons_eq]; exact if_pos rfl) hp' (by rw [open_rate _ _ _ _ (by rw [ht]; exact h0)]; exact lb')
  have hev : Everyday pr.integrator 0 (0.896 / (1387.15 - 1237.15)) :=
    template_everyday rainModels rfl (by
      intro f hf
      have hf : f ∈ [(Flux.rain 7.93e-8 958 2.8e6 : Flux ℝ)] := hf
      rw [List.mem_singleton.mp hf]
      show (0 : ℝ) ≤ 7.93e-8 * 958 * 2.8e6
      norm_num) false 10 0
  rw [← g2] at ra ca sa ha
  rw [← k2] at rb cb
  obtain ⟨c1, c2, c3, c4⟩ := C128_run depthGrid depthGrid 3000 3000 rainEnv "a.json" "b.json" "out" "out" ⟨[("a.json", rainConfig (.int 0))], [], []⟩
    ⟨[("b.json", crystalConfig 0.2)], [], []⟩ q q' (rainConfig (.int 0)) (crystalConfig 0.2)
    (by rw [lookup_cons_eq]; exact if_pos rfl) (by rw [lookup_cons_eq]; exact if_pos rfl) rainChoice (exConfig_selects _ _) pr hprep (crystal_same 0.2) 1387.15 0.2 hvat
    ⟨_, ⟨_, rfl, rfl⟩, hzero⟩ (.inr (N0 ("eruption_condition", "eruption_temperature") (by decide))) (by
      rintro v ⟨top, inner, e, e1, e2⟩
      cases e
      cases e1
      cases e2) hg _ hev hv hvb (by rw [hst]) (by rw [hst]; norm_num) (crystal_moves 0 0.2 _ (by norm_num) le_rfl) g1 k1 sa
  exact ⟨q, q', g1, k1, ra, rb, ca, by rw [cb, q3], c1, c3, c4 ha⟩

end PyFlowGo
