import Verif.Props.KinderVentExample
/-
  C126 without its last hypothesis: for lava that is stuck in the channel found for it, a kinder vent can lead to a deeper channel.
-/
set_option linter.unusedSectionVars false
namespace PyFlowGo
open Spec

/-- For stuck lava the velocity formula gives a smaller number under a larger stress. -/
theorem bingham_stuck {d tb tb' mu t0 : ℝ} (hd : 0 < d) (htb : 0 < tb) (hlt : tb < tb') (hmu : 0 < mu) (hs : tb' < t0) :
    binghamVelocity d tb' mu t0 < binghamVelocity d tb mu t0 := by
  have htb' : 0 < tb' := htb.trans hlt
  have form : ∀ T : ℝ, 0 < T → binghamVelocity d T mu t0 = d / (3 * mu) * (T - 3 / 2 * t0 + 1 / 2 * (t0 ^ 3 / T ^ 2)) := by
    intro T hT
    unfold binghamVelocity
    field_simp
  rw [form _ htb, form _ htb']
  refine mul_lt_mul_of_pos_left ?_ (by positivity)
  have h0 : 0 < t0 := htb'.trans hs
  have key : tb' - tb < 1 / 2 * (t0 ^ 3 / tb ^ 2 - t0 ^ 3 / tb' ^ 2) := by
    have e : t0 ^ 3 / tb ^ 2 - t0 ^ 3 / tb' ^ 2 = t0 ^ 3 * ((tb' - tb) * (tb' + tb)) / (tb ^ 2 * tb' ^ 2) := by
      field_simp; ring
    rw [e]
    have hx : 0 < tb' - tb := by linarith
    have : 2 * (tb ^ 2 * tb' ^ 2) < t0 ^ 3 * (tb' + tb) := by
      have a1 : tb' ^ 3 < t0 ^ 3 := by gcongr
      have a2 : tb' ^ 3 * (tb' + tb) < t0 ^ 3 * (tb' + tb) := by
        have : 0 < tb' + tb := by linarith
        gcongr
      have a3 : 2 * (tb ^ 2 * tb' ^ 2) ≤ tb' ^ 3 * (tb' + tb) := by
        have b1 : tb ^ 2 ≤ tb' ^ 2 := by gcongr
        have b2 : tb ^ 2 ≤ tb' * tb := by nlinarith
        have b3 : 0 < tb' ^ 2 := by positivity
        nlinarith
      linarith
    rw [← mul_div_assoc, lt_div_iff₀ (by positivity)]
    nlinarith
  linarith

/-- **C126**, stuck lava. There are two vents that differ in gravity only, with sensible parameters and the same effusion rate, such that the one with twice the gravity is
    given the deeper channel: the lava is stuck in the channel of one centimetre that is found for it at the first vent (its yield strength exceeds the basal stress). -/
theorem C126_stuck_vent : ∃ (g : Integrator ℝ) (w w' w1 w1' : World ℝ), Sensible g w.terrain w.st.pos ∧ NoStrainRate g.models.lava ∧ AtVent g w ∧ AtVent g w' ∧
    0 < w.terrain.effusionRateInit ∧ w' = { w with terrain := { w.terrain with gravity := 2 * w.terrain.gravity } } ∧ KinderVent w w' ∧
    initEffusionRate g.models.lava w = (.ok (), w1) ∧ initEffusionRate g.models.lava w' = (.ok (), w1') ∧
    w1.terrain.depth < w1'.terrain.depth ∧ g.models.lava.yieldNotCompatible w1.terrain w.st = .ok true := by
  obtain ⟨r0, hr0, h⟩ := rain_run
  obtain ⟨hprep, hg, hv, -⟩ := h r0 le_rfl
  set pr := rainPrepared (.num r0) r0 templateRows with hpr
  have hn : NoStrainRate rainModels.lava := by
    refine ⟨fun _ _ _ _ _ _ _ _ h => (by cases h), fun _ h => (by cases h), fun _ _ _ _ _ h => (by cases h)⟩
  let s : FlowState ℝ := { pr.world.st with crystal := 0.4 }
  let W : ℝ → ℝ → World ℝ := fun G r => { pr.world with terrain := { pr.world.terrain with gravity := G, effusionRateInit := r }, st := s }
  have hgW : ∀ G r, G ≠ 0 → Sensible pr.integrator (W G r).terrain 0 := fun G r hG => { hg with gravity := hG, width := hg.width, slopes := hg.slopes }
  have hvW : ∀ G r, AtVent pr.integrator (W G r) := by
    intro G r
    refine ⟨?_, hv.hot, ?_, fun h => h, hv.depth, hv.ground⟩
    · show (0 : ℝ) ≤ 0.4
      norm_num
    · show RelModel.er.notCompatible s = _
      unfold RelModel.notCompatible
      dsimp only
      rw [div_of_ne (by norm_num), ok_bind]
      congr 1
      rw [← Bool.not_eq_true, leB_real, not_le, one_lit, lt_div_iff₀ (by norm_num)]
      show (0.4 : ℝ) * _ < 1
      norm_num
  have fitW : ∀ G r, Fit pr.integrator (W G r).terrain 0 s := fun G r => ⟨le_rfl, (hvW G r).crystals, (hvW G r).hot, (hvW G r).room, (hvW G r).off, (hvW G r).ground⟩
  obtain ⟨mu, hmu, hmu0⟩ := viscosity_total (hgW 9.81 1 (by norm_num)) (fitW 9.81 1)
  -- the yield strength
  have hy : pr.integrator.models.lava.yieldStrength s = .ok (yieldLaw s (.basic 1387.15)) := C34_yield_laws _ _ (by show (0 : ℝ) ≤ 0.4; norm_num)
  set t0 := yieldLaw s (.basic 1387.15) with ht0
  have h400 : 400 ≤ t0 := by
    have e : t0 = 0.01 * Real.exp (0.08 * (1387.15 - 1387.15) - 1) + 6500 * (0.4 : ℝ) ^ (2.85 : ℝ) := rfl
    have a1 : (0.4 : ℝ) ^ (3 : ℝ) ≤ (0.4 : ℝ) ^ (2.85 : ℝ) := Real.rpow_le_rpow_of_exponent_ge (by norm_num) (by norm_num) (by norm_num)
    have a2 : (0.4 : ℝ) ^ (3 : ℝ) = 0.064 := by
      rw [show (3 : ℝ) = ((3 : ℕ) : ℝ) by norm_num, Real.rpow_natCast]; norm_num
    have := Real.exp_pos (0.08 * (1387.15 - 1387.15) - 1)
    rw [e]
    nlinarith
  -- the stress
  set k := 2970 * (1 - 0.64) * Real.sin (degToRad 12) with hk
  have hsin := rain_sine_pos
  have hk0 : 0 < k := by rw [hk]; positivity
  have hk1 : k ≤ 1100 := by
    have := Real.sin_le_one (degToRad 12)
    rw [hk]; nlinarith
  have hb : ∀ G r d, pr.integrator.models.lava.basalStress { (W G r).terrain with depth := d } s = .ok (d * k * G) := by
    intro G r d
    unfold Lava.basalStress
    have : ({ (W G r).terrain with depth := d } : Terrain ℝ).slope s.pos = .ok (degToRad 12) := rain_vent_slope (.num r0) r0 d
    rw [this, ok_bind]
    show Except.ok (d * (2970 * (1.0 - 0.64)) * G * Real.sin (degToRad 12)) = _
    rw [hk]
    congr 1
    norm_num
    ring
  have hvel : ∀ G r d v x, 0 < d → pr.integrator.models.lava.meanVelocity { (W G r).terrain with depth := d } s = .ok (v, x) → v = binghamVelocity d (d * k * G) mu t0 := by
    intro G r d v x hd hm
    obtain ⟨a, b, m, e1, e2, e3, _, _, _, e7, _⟩ := (meanVelocity_ok_iff _ _ _ _ _).mp hm
    rw [hy] at e1
    rw [hb] at e2
    rw [hmu] at e3
    rw [e7, ← Except.ok.inj e1, ← Except.ok.inj e2, ← Except.ok.inj e3]
  set r := binghamVelocity 0.01 (0.01 * k * 9.81) mu t0 * 4.5 * 0.01 with hr
  have hstuck : 0.01 * k * (2 * 9.81) < t0 := by nlinarith
  have hv1 : binghamVelocity 0.01 (0.01 * k * (2 * 9.81)) mu t0 < binghamVelocity 0.01 (0.01 * k * 9.81) mu t0 :=
    bingham_stuck (by norm_num) (by positivity) (by nlinarith) hmu0 hstuck
  have hv0 : 0 ≤ binghamVelocity 0.01 (0.01 * k * (2 * 9.81)) mu t0 := bingham_nonneg (by norm_num) (by positivity) hmu0 (by linarith)
  have hrpos : 0 < r := by
    have : 0 < binghamVelocity 0.01 (0.01 * k * 9.81) mu t0 := hv0.trans_lt hv1
    rw [hr]; positivity
  obtain ⟨w1, hi, _⟩ := C117_depth_search (W 9.81 r) (hgW 9.81 r (by norm_num)) le_rfl (hvW 9.81 r)
  obtain ⟨w1', hi', _⟩ := C117_depth_search (W (2 * 9.81) r) (hgW (2 * 9.81) r (by norm_num)) le_rfl (hvW (2 * 9.81) r)
  have hl := noStrain_independent hn
  have g0 : (depthGrid : List ℝ).getD 0 0 = 0.01 := by
    rw [depthGrid_getD 0 (by norm_num)]; unfold gridDepth; norm_num
  have d1 : w1.terrain = { (W 9.81 r).terrain with depth := 0.01 } := by
    have hi2 := hi
    unfold initEffusionRate at hi2
    rw [search_of_rate _ _ _ (by exact hrpos.ne')] at hi2
    obtain ⟨i, v, y, _, _, hbelow, _, e⟩ := search_found _ hl _ grid_nonempty _ _ hi2
    rcases Nat.eq_zero_or_pos i with rfl | hi0
    · rw [e, g0]
    · exfalso
      obtain ⟨vj, yj, hj, hlt⟩ := hbelow 0 hi0
      rw [g0] at hj hlt
      have := hvel _ _ _ _ _ (by norm_num) hj
      rw [this] at hlt
      exact lt_irrefl _ hlt
  have d2 : 0.01 < w1'.terrain.depth := by
    have hi2 := hi'
    unfold initEffusionRate at hi2
    rw [search_of_rate _ _ _ (by exact hrpos.ne')] at hi2
    obtain ⟨i, v, y, hik, hvi, _, hend, e⟩ := search_found _ hl _ grid_nonempty _ _ hi2
    have ed : w1'.terrain.depth = (depthGrid : List ℝ).getD i 0 := by rw [e]
    rw [ed]
    rcases Nat.eq_zero_or_pos i with rfl | hi0
    · exfalso
      rw [g0] at hvi hend
      have ev := hvel _ _ _ _ _ (by norm_num) hvi
      rcases hend with he | he
      · have he : r ≤ v * 4.5 * 0.01 := he
        rw [ev, hr] at he
        have key : ∀ X Y : ℝ, X < Y → ¬ Y * 4.5 * 0.01 ≤ X * 4.5 * 0.01 := fun X Y h1 h2 => by linarith
        exact key _ _ hv1 he
      · rw [depthGrid_length] at he
        omega
    · rw [depthGrid_length] at hik
      rw [depthGrid_getD i hik]
      unfold gridDepth
      have : (1 : ℝ) ≤ (i : ℝ) := by exact_mod_cast hi0
      linarith
  refine ⟨pr.integrator, W 9.81 r, W (2 * 9.81) r, w1, w1', hgW 9.81 r (by norm_num), hn, hvW _ _, hvW _ _, hrpos, rfl, ?_, hi, hi', ?_, ?_⟩
  · refine ⟨rfl, le_rfl, le_rfl, le_rfl, ⟨?_, ?_⟩, ?_, le_rfl⟩
    · show (0 : ℝ) < 9.81
      norm_num
    · show (9.81 : ℝ) ≤ 2 * 9.81
      norm_num
    · intro y y' h1 h2
      rw [rain_slope_at_vent (rate := .num r0) (e := r0) h1, rain_slope_at_vent (rate := .num r0) (e := r0) h2]
      exact ⟨hsin, le_rfl⟩
  · rw [d1]
    exact d2
  · rw [d1]
    show pr.integrator.models.lava.yieldNotCompatible { (W 9.81 r).terrain with depth := 0.01 } s = _
    unfold Lava.yieldNotCompatible
    rw [hy, ok_bind, hb, ok_bind, pure_ok_iff, leB_real]
    nlinarith

end PyFlowGo
