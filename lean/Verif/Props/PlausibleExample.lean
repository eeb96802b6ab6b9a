import Verif.Props.Plausible
import Verif.Props.SensibleExample
import Verif.Props.Compare
/-
  C119 for configurations like resource/template.json; a run of the template that writes rows.
-/
set_option linter.unusedSectionVars false
namespace PyFlowGo
open Spec

/-- **C119** for a configuration file like the template: if it can be loaded, its numbers make physical sense and its vent lies on its slope
    profile, then the run ends without an exception and every complete row of what it recorded shows physically possible numbers. -/
theorem C119_template (env : Env ℝ) (jsonFile folder : String) (p : Proc ℝ) (data : Json ℝ) (pr : Prepared ℝ)
    (hdata : lookup p.json (env.canon jsonFile) = some data) (hprep : prepare env data [] = .ok pr)
    (c : Choice) (hsel : Selects data c) (hc : TemplateModels c) (hp : Physical env data)
    (path : String) (rows : List (SlopeLine ℝ)) (hpath : SlopePath pr.cfg.slopeFile path) (hrows : env.slopeFile path = some rows)
    (hin : ∃ r ∈ usableRows rows, ∃ r' ∈ usableRows rows, r.dist ≤ pr.world.st.pos ∧ pr.world.st.pos ≤ r'.dist)
    (hsteep : ∀ q ∈ usableRows rows, q.slopeDeg < 180)
    (hm : pr.integrator.massConservation = true → pr.world.terrain.effusionRateInit ≠ 0)
    (n : Nat) (hn : 1 ≤ n) (hL : (pr.world.terrain.maxLength - pr.world.st.pos) / pr.integrator.dx ≤ n) :
    ∃ p' depth, run n env jsonFile folder (newRunner p) = some (.ok (), p') ∧ 0 < depth ∧
      ∀ x, CompleteRow p'.log x → PlausibleRow pr.integrator depth pr.world.st p'.log x := by
  obtain ⟨p', h⟩ := C117_template_completes env jsonFile folder p data pr hdata hprep c hsel hc hp path rows hpath hrows hin hsteep hm n hn hL
  obtain ⟨hrel, hg⟩ := C117_template_sensible env data [] pr hprep c hsel hc hp
  have hv := template_vent env data pr hprep c hsel hc hp path rows hpath hrows hin hsteep
  obtain ⟨depth, h1, h2, _⟩ := C119_run env jsonFile folder p p' data pr hdata hprep hg hv hm n h
  exact ⟨p', depth, h, h1, h2⟩

theorem template_yield : yieldLaw (⟨0.104, 1387.15, 0, 1, 0⟩ : FlowState ℝ) (.basic 1387.15) ≤ 71 := by
  show 0.01 * Real.exp (0.08 * (1387.15 - 1387.15) - 1) + 6500 * (0.104 : ℝ) ^ (2.85 : ℝ) ≤ 71
  have h1 : Real.exp (0.08 * (1387.15 - 1387.15) - 1) ≤ 1 := Real.exp_le_one_iff.mpr (by norm_num)
  have h2 : (0.104 : ℝ) ^ (2.85 : ℝ) ≤ (0.104 : ℝ) ^ (2 : ℝ) := Real.rpow_le_rpow_of_exponent_ge (by norm_num) (by norm_num) (by norm_num)
  have h3 : (0.104 : ℝ) ^ (2 : ℝ) = 0.104 ^ 2 := by norm_num
  rw [h3] at h2
  have h4 : (0.104 : ℝ) ^ 2 = 0.010816 := by norm_num
  linarith

theorem crust_exponent : (293.15 : ℝ) ≤ ((773.15 : ℝ) ^ (1.333 : ℝ)) ^ (0.75 : ℝ) := by
  rw [← Real.rpow_mul (by norm_num)]
  have h1 : (773.15 : ℝ) ^ (9 / 10 : ℝ) ≤ (773.15 : ℝ) ^ ((1.333 : ℝ) * 0.75) := Real.rpow_le_rpow_of_exponent_le (by norm_num) (by norm_num)
  refine le_trans ?_ h1
  have h2 : (293.15 : ℝ) = ((293.15 : ℝ) ^ (10 : ℕ)) ^ (1 / 10 : ℝ) := by
    rw [← Real.rpow_natCast, ← Real.rpow_mul (by norm_num)]; norm_num
  have h3 : (773.15 : ℝ) ^ (9 / 10 : ℝ) = ((773.15 : ℝ) ^ (9 : ℕ)) ^ (1 / 10 : ℝ) := by
    rw [← Real.rpow_natCast, ← Real.rpow_mul (by norm_num)]; norm_num
  rw [h2, h3]
  exact Real.rpow_le_rpow (by norm_num) (by norm_num) (by norm_num)

/-- The heat that the template loses at its vent. -/
theorem template_loses (t : Terrain ℝ) (depth : ℝ) (hd : 0 < depth) (s : FlowState ℝ) (hT : s.temp = 1387.15)
    (hv : ∀ v x, templateModels.lava.meanVelocity t s = .ok (v, x) → 0 ≤ v)
    (width : ℝ) (hw : 0 < width) (qs : List ℝ) (h : List.Forall₂ (FluxIs templateModels width depth t s) templateModels.fluxes qs) :
    0 < qs.sum := by
  have hfl : templateModels.fluxes = [.radBasic 5.67e-8 0.95, .conduction 773.15 19, .convection] := rfl
  rw [hfl] at h
  cases h with
  | cons h1 h =>
  cases h with
  | cons h2 h =>
  cases h with
  | cons h3 h =>
  cases h
  rename_i q1 q2 q3
  have cover : ∀ v, 0 ≤ v → 0 ≤ coverLaw templateModels.cover s.pos v ∧ coverLaw templateModels.cover s.pos v ≤ 1 := fun v hv => by
    rw [← cover_value]
    exact cover_fraction (.basic (-0.00756) 1) ⟨by norm_num, by norm_num, le_rfl⟩ _ _ hv
  have e1 : 0 ≤ q1 := (C118_never_warms templateModels t (fun _ _ _ => True)).2.2.2.2 5.67e-8 0.95 (by norm_num) width s q1 hw trivial h1
  have e2 : 0 < q2 := by
    obtain ⟨_, rfl⟩ := h2
    have : templateModels.lava.vesicleFraction s = 0.64 := rfl
    rw [this, hT]
    have h1 : (0 : ℝ) < (1387.15 - 773.15) / (19 / 100 * depth) := div_pos (by norm_num) (by positivity)
    have h2 : (0 : ℝ) < (1.929 - 1.554 * 0.64) ^ 2 := by norm_num
    exact mul_pos (mul_pos h2 h1) hw
  have e3 : 0 ≤ q3 := by
    obtain ⟨v, x, Tc, k1, k2, k3, k4, k5, rfl⟩ := h3
    have hTc : Tc = 773.15 := by
      have : templateModels.crust.temperature s = .ok 773.15 := rfl
      rw [this, Except.ok.injEq] at k2; exact k2.symm
    have hTm : coreTemperature templateModels.lava s = 1247.15 := by
      show s.temp - 140 = _
      rw [hT]; norm_num
    obtain ⟨c0, c1⟩ := cover v (hv v x k1)
    rw [hTc, hTm] at k5 ⊢
    have hm : (773.15 : ℝ) ^ (1.333 : ℝ) ≤ (1247.15 : ℝ) ^ (1.333 : ℝ) := Real.rpow_le_rpow (by norm_num) (by norm_num) (by norm_num)
    have hmix : (773.15 : ℝ) ^ (1.333 : ℝ) ≤ mix (coverLaw templateModels.cover s.pos v) ((773.15 : ℝ) ^ (1.333 : ℝ)) ((1247.15 : ℝ) ^ (1.333 : ℝ)) := by
      unfold mix; nlinarith
    have hc : (293.15 : ℝ) ≤ convectiveTemperature (coverLaw templateModels.cover s.pos v) 773.15 1247.15 := by
      unfold convectiveTemperature
      exact crust_exponent.trans (Real.rpow_le_rpow (by positivity) hmix (by norm_num))
    have hair : templateModels.air.temp = 293.15 := rfl
    rw [hair]
    have hcoef : 0 ≤ templateModels.air.convCoef := by
      show (0 : ℝ) ≤ _
      unfold Air.convCoef templateModels
      norm_num
    exact mul_nonneg (mul_nonneg hcoef (by linarith)) hw.le
  simp only [List.sum_cons, List.sum_nil]
  linarith

theorem template_slope : (templatePrepared (.int 0) 0 templateRows).world.terrain.slope 0 = .ok (degToRad 12) := by
  have h2 : 2 ≤ (usableRows templateRows).length := by rw [template_usable]; simp
  have hok := (C48_read_slope (templateTerrain 0 none) { templateTerrain 0 none with spline := some ⟨profileFor (templateTerrain 0 none) templateRows⟩ }
    templateRows).mpr ⟨h2, by rw [template_usable]; simp, fun h => by simp [templateTerrain] at h, rfl⟩
  have hmem : ((0 : ℝ), degToRad 12) ∈ profileFor (templateTerrain 0 none) templateRows := by
    unfold profileFor
    rw [if_neg (by simp [templateTerrain])]
    unfold rawProfile
    rw [template_usable]
    simp
  exact C50_at_samples _ _ _ hok (0, degToRad 12) hmem

/-- Non-vacuity: the template with the depth of the file (effusion rate 0) on the profile of three samples. The run ends, its table begins with
    a complete row at the vent, and all the rows are plausible. -/
example : ∃ p' depth, run 3000 { exEnv with slopeFile := fun _ => some templateRows } "template.json" "out"
      (newRunner { json := [("template.json", templateConfig (.int 0))], results := [], log := [] }) = some (.ok (), p') ∧ 0 < depth ∧
    CompleteRow p'.log 0 ∧
    ∀ x, CompleteRow p'.log x → PlausibleRow (templatePrepared (.int 0) 0 templateRows).integrator depth
      (templatePrepared (.int 0) 0 templateRows).world.st p'.log x := by
  have h2 : 2 ≤ (usableRows templateRows).length := by rw [template_usable]; simp
  have hasc : (usableRows templateRows).Pairwise fun a b => a.dist < b.dist := by rw [template_usable]; simp
  have hprep := template_prepare { exEnv with slopeFile := fun _ => some templateRows } (.int 0) 0
    (by show Except.ok (((0 : ℤ)) : ℝ) = _; norm_num) templateRows rfl h2 hasc
  have hin : ∃ r ∈ usableRows templateRows, ∃ r' ∈ usableRows templateRows, r.dist ≤ (0 : ℝ) ∧ (0 : ℝ) ≤ r'.dist := by
    rw [template_usable]; exact ⟨_, List.mem_cons_self, _, List.mem_cons_self, le_rfl, le_rfl⟩
  have hsteep : ∀ q ∈ usableRows templateRows, q.slopeDeg < 180 := by
    rw [template_usable]
    intro q hq
    simp only [List.mem_cons, List.not_mem_nil, or_false] at hq
    rcases hq with rfl | rfl <;> norm_num
  obtain ⟨hrel, hg⟩ := C117_template_sensible _ _ _ _ hprep templateChoice (exConfig_selects _ _) ⟨rfl, rfl, rfl, rfl, rfl, rfl⟩ (template_physical _ _)
  have hv := template_vent _ _ _ hprep templateChoice (exConfig_selects _ _) ⟨rfl, rfl, rfl, rfl, rfl, rfl⟩ (template_physical _ _)
    "slope.txt" templateRows (Or.inl rfl) rfl hin hsteep
  obtain ⟨p', depth, h1, hd, h3⟩ := C119_template { exEnv with slopeFile := fun _ => some templateRows } "template.json" "out"
    { json := [("template.json", templateConfig (.int 0))], results := [], log := [] } _ _ rfl hprep templateChoice
    (exConfig_selects _ _) ⟨rfl, rfl, rfl, rfl, rfl, rfl⟩ (template_physical _ _) "slope.txt" templateRows (Or.inl rfl) rfl hin hsteep
    (fun h => by cases h) 3000 (by norm_num) (by show ((30000 : ℝ) - 0) / 10 ≤ _; norm_num)
  refine ⟨p', depth, h1, hd, ?_, h3⟩
  set pr := templatePrepared (.int 0) 0 templateRows with hpr
  have hloop : ∀ r, simulateOn depthGrid 3000 pr.integrator pr.world = r → runLoop pr.integrator 3000 pr.world = r := by
    rintro r rfl
    have he : initEffusionRateOn depthGrid pr.integrator.models.lava pr.world = (.ok (), pr.world) := by
      unfold initEffusionRateOn
      rw [PyM.bind_of_ok (PyM.get_apply _), if_pos (by rw [eqB_real]; show (0 : ℝ) = 0.0; norm_num)]
      rfl
    unfold simulateOn
    rw [he]
  obtain ⟨r, w', hsim, hcase⟩ := simulate_total pr.world hg le_rfl hv rfl (fun h => by cases h) 3000 (by norm_num)
    (by show ((30000 : ℝ) - 0) / 10 ≤ _; norm_num)
  rcases hcase with ⟨rfl, _⟩ | ⟨_, hpk⟩
  swap
  · rw [hrel] at hpk; exact hpk.elim
  obtain ⟨p2, k1, k2, _⟩ := C04_run_writes (fun c => beq_self_eq_true c) depthGrid 3000 { exEnv with slopeFile := fun _ => some templateRows }
    "template.json" "out" { json := [("template.json", templateConfig (.int 0))], results := [], log := [] } _ pr w' rfl hprep hsim
  unfold run at h1
  rw [h1] at k1
  have e : p' = p2 := by simpa using k1
  rw [e, k2]
  have hst : pr.world.st.pos = 0 := rfl
  rw [← hst]
  have hs : Fit pr.integrator pr.world.terrain pr.world.st.pos pr.world.st := ⟨le_rfl, hv.crystals, hv.hot, hv.room, hv.off, hv.ground⟩
  obtain ⟨mu, hmu, hmu0⟩ := viscosity_total hg hs
  have hy : pr.integrator.models.lava.yieldStrength pr.world.st = .ok (yieldLaw pr.world.st (.basic 1387.15)) := C34_yield_laws _ _ hv.crystals
  have hy71 : yieldLaw pr.world.st (.basic 1387.15) ≤ 71 := template_yield
  have hy0 : 0 ≤ yieldLaw pr.world.st (.basic 1387.15) := by
    obtain ⟨q, q1, q2⟩ := yield_total (g := pr.integrator) hv.crystals
    rw [hy, Except.ok.injEq] at q1
    rw [q1]; exact q2
  have hb : pr.integrator.models.lava.basalStress pr.world.terrain pr.world.st = .ok (1.4 * (2970 * (1 - 0.64)) * 9.81 * Real.sin (degToRad 12)) := by
    unfold Lava.basalStress
    rw [hst, template_slope, ok_bind]
    have e : pr.integrator.models.lava.density pr.world.st = 2970 * (1 - 0.64) := by
      show (2970 : ℝ) * (1.0 - 0.64) = _
      norm_num
    rw [e]
    rfl
  have hsin : 2 / 15 ≤ Real.sin (degToRad 12) := by
    have h0 : 0 ≤ degToRad 12 := by unfold degToRad; positivity
    have h1 : degToRad 12 ≤ Real.pi / 2 := by unfold degToRad; linarith [Real.pi_pos]
    refine le_trans (le_of_eq ?_) (Real.mul_le_sin h0 h1)
    unfold degToRad
    have := Real.pi_pos.ne'
    field_simp
    norm_num
  have hbig : 71 < 1.4 * (2970 * (1 - 0.64)) * 9.81 * Real.sin (degToRad 12) := by nlinarith
  have hvel := (meanVelocity_ok_iff pr.integrator.models.lava pr.world.terrain pr.world.st _ _).mpr
    ⟨_, _, mu, hy, hb, hmu, hmu0.ne', by linarith, hv.depth.ne', rfl, rfl⟩
  have hv0 := bingham_pos (d := pr.world.terrain.depth) hv.depth (lt_trans (by norm_num) hbig) hmu0 hy0 (by linarith)
  refine C119_first_row pr.world w' hg le_rfl hv rfl rfl rfl rfl (fun _ _ => rfl) _ _ hvel hv0 (fun width qs hw hq => ?_) 3000 (hloop _ hsim)
  exact template_loses _ _ hv.depth _ rfl (fun v x hvx => by
    rw [show templateModels = pr.integrator.models from rfl, hvel, Except.ok.injEq, Prod.mk.injEq] at hvx
    rw [← hvx.1]; exact hv0.le) width hw qs hq

end PyFlowGo
