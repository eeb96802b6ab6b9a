import Verif.Proofs.ExampleRun
import Verif.Proofs.StepReal
import Verif.Props.Integrator
import Verif.Props.Budget
import Verif.Proofs.FullRunLemmas
import Mathlib.Analysis.Complex.ExponentialBounds
/-
  A family of flows that run for any prescribed number of steps.
-/
namespace PyFlowGo
open Spec

/-- Constant relative viscosity (Krieger-Dougherty with Einstein coefficient 0), Ryerson yield strength, no wind. -/
noncomputable def flowLava (m : MeltModel ℝ) : Lava ℝ := { exLava 1 (.kd 1 0) .ryerson with melt := m }

noncomputable def flowModels (fs : List (Flux ℝ)) (cr : CrystModel ℝ := .basic 0 1 0 1000) (m : MeltModel ℝ := .basic 1 1000) : Models ℝ :=
  { exModels with lava := flowLava m, air := { exModels.air with windSpeed := 0 }, fluxes := fs, cryst := cr }

noncomputable def flowG (fs : List (Flux ℝ)) (cr : CrystModel ℝ := .basic 0 1 0 1000) (m : MeltModel ℝ := .basic 1 1000) : Integrator ℝ :=
  { dx := 1, models := flowModels fs cr m, massConservation := false }

/-- At least one crystal per thousand kelvin, at every state; solid at 0 K. -/
structure SlowCryst (cr : CrystModel ℝ) : Prop where
  rate : ∀ s, ∃ r, cr.rate s = .ok r ∧ 1 / 1000 ≤ r
  solid : cr.solidTemperature = 0

theorem slow_basic : SlowCryst (.basic 0 1 0 1000) :=
  ⟨fun s => ⟨1 / 1000, by show PyNum.div (1 : ℝ) (1000 - 0) = _; rw [div_of_ne (by norm_num)]; norm_num, le_rfl⟩, rfl⟩

theorem slow_bimodal (d r1 r2 : ℝ) (h1 : 1 / 1000 ≤ r1) (h2 : 1 / 1000 ≤ r2) : SlowCryst (.bimodal 0 d r1 r2 0) :=
  ⟨fun s => ⟨_, rfl, by split <;> assumption⟩, rfl⟩

theorem slow_bimodalFTemp (tc r1 r2 : ℝ) (h1 : 1 / 1000 ≤ r1) (h2 : 1 / 1000 ≤ r2) : SlowCryst (.bimodalFTemp 0 tc r1 r2 0) :=
  ⟨fun s => ⟨_, rfl, by split <;> assumption⟩, rfl⟩

/-- Heat lost to rain at the rate `eps` per metre of width. -/
noncomputable abbrev longG (eps : ℝ) : Integrator ℝ := flowG [.rain eps 1 1]

noncomputable def longTerrain (len : ℝ) : Terrain ℝ := { exTerrain 3 with maxLength := len }

/-- A vertical channel of length `len`, 1 m deep and wide, with gravity 3 m/s2 and effusion rate 1 m3/s, given or computed. -/
structure LongChannel (len : ℝ) (T : Terrain ℝ) : Prop where
  slope : ∀ x, T.slope x = .ok (Real.pi / 2)
  gravity : T.gravity = 3
  depth : T.depth = 1
  width : T.width = 1
  maxLength : T.maxLength = len
  rate : T.effusionRateInit = 0 ∨ T.effusionRateInit = 1

theorem longTerrain_channel (len : ℝ) : LongChannel len (longTerrain len) := ⟨fun _ => rfl, rfl, rfl, rfl, rfl, Or.inl rfl⟩

noncomputable def longWorld (x0 len : ℝ) : World ℝ :=
  newWorld (longTerrain len) { exState 0 0 with pos := x0 } []

/-- The situation after `i` steps. -/
structure LongInv (T : Terrain ℝ) (eps x0 : ℝ) (i : Nat) (w : World ℝ) : Prop where
  terrain : w.terrain = T
  iter : w.iteration = i
  unfinished : w.finished = false
  rate : i ≠ 0 → w.effusionRate = 1
  pos : w.st.pos = x0 + i
  phi0 : 0 ≤ w.st.crystal
  phi1 : w.st.crystal ≤ 3 * eps * i
  start : i = 0 → w.st.crystal = 0
  temp : 1000 - 1000 * w.st.crystal ≤ w.st.temp ∧ w.st.temp ≤ 1000

theorem longInv_zero (eps x0 len : ℝ) : LongInv (longTerrain len) eps x0 0 (longWorld x0 len) :=
  { terrain := rfl, iter := rfl, unfinished := rfl, rate := fun h => absurd rfl h,
    pos := by show x0 = _; simp
    phi0 := le_refl (0 : ℝ), phi1 := by show (0 : ℝ) ≤ _; simp
    start := fun _ => rfl, temp := by show 1000 - 1000 * (0 : ℝ) ≤ 1000 ∧ (1000 : ℝ) ≤ 1000; norm_num }

theorem long_ryerson (s : FlowState ℝ) (h0 : 0 ≤ s.crystal) (h1 : s.crystal ≤ 1 / 100) :
    ∃ t0, (YieldModel.ryerson : YieldModel ℝ).strength s = .ok t0 ∧ 0 ≤ t0 ∧ t0 ≤ 13 / 20 ∧
      (s.crystal = 0 → t0 = 0) := by
  rcases h0.eq_or_lt with h | h
  · refine ⟨0, ?_, le_refl _, by norm_num, fun _ => rfl⟩
    have hs := ryerson_zero s.strain
    have : (YieldModel.ryerson : YieldModel ℝ).strength s = (YieldModel.ryerson : YieldModel ℝ).strength (exState 0 s.strain) := by
      unfold YieldModel.strength
      rw [← h]; rfl
    rw [this, hs]
  · refine ⟨6500 * s.crystal ^ (2.85 : ℝ), ?_, by positivity, ?_, fun e => absurd e h.ne'⟩
    · unfold YieldModel.strength ryersonTerm
      rw [pow_of_pos _ h, ok_bind, pure_ok_iff]; norm_num
    · have h2 : s.crystal ^ (2.85 : ℝ) ≤ s.crystal ^ (2 : ℝ) :=
        Real.rpow_le_rpow_of_exponent_ge h (by linarith) (by norm_num)
      rw [show (2 : ℝ) = ((2 : ℕ) : ℝ) by norm_num, Real.rpow_natCast] at h2
      have h3 : s.crystal ^ 2 ≤ (1 / 100) ^ 2 := pow_le_pow_left₀ h0 h1 2
      norm_num at h2 h3 ⊢
      linarith

theorem long_kd (s : FlowState ℝ) (h : s.crystal ≤ 1 / 100) : (RelModel.kd 1 0 : RelModel ℝ).relative s = .ok 1 := by
  unfold RelModel.relative
  dsimp only
  rw [div_of_ne one_ne_zero, ok_bind]
  have : (-(0 : ℝ)) * 1 = 0 := by norm_num
  rw [this, mpow_of_pos _ (by norm_num; linarith), Real.rpow_zero]

theorem long_basal {len : ℝ} {T : Terrain ℝ} (hT : LongChannel len T) (s : FlowState ℝ) :
    (exLava 1 (.kd 1 0) .ryerson).basalStress T s = .ok 3 := by
  unfold Lava.basalStress
  rw [exLava_density, hT.slope, ok_bind, pure_ok_iff, hT.gravity, hT.depth]
  simp

/-- A melt that stays thin in the range of temperatures of these flows. -/
structure ThinMelt (m : MeltModel ℝ) : Prop where
  viscosity : ∀ s : FlowState ℝ, 0 ≤ s.crystal → s.crystal ≤ 1 / 100 → (1000 - 1000 * s.crystal ≤ s.temp ∧ s.temp ≤ 1000) →
    ∃ mu, m.viscosity s = .ok mu ∧ 1 ≤ mu ∧ mu ≤ 2 ∧ (s.crystal = 0 → mu = 1)

theorem thin_basic : ThinMelt (.basic 1 1000) := by
  refine ⟨fun s h0 h1 ht => ⟨Real.exp (0.04 * (1000 - s.temp)), ?_, Real.one_le_exp (by linarith [ht.2]), ?_, fun h => ?_⟩⟩
  · unfold MeltModel.viscosity
    dsimp only
    show Except.ok (1 * Real.exp (0.04 * (1000 - s.temp))) = _
    rw [one_mul]
  · have h5 : Real.exp (0.04 * (1000 - s.temp)) ≤ Real.exp (1 / 2) := Real.exp_le_exp.mpr (by linarith [ht.1])
    have h6 : Real.exp (1 / 2) ^ 2 = Real.exp 1 := by rw [← Real.exp_nat_mul]; norm_num
    have h7 := Real.exp_one_lt_d9
    nlinarith [Real.exp_pos (1 / 2 : ℝ)]
  · have : s.temp = 1000 := by have := ht.1; rw [h] at this; linarith [ht.2]
    rw [this]; simp

theorem flow_bulk {m : MeltModel ℝ} (hm : ThinMelt m) (s : FlowState ℝ) (h0 : 0 ≤ s.crystal) (h1 : s.crystal ≤ 1 / 100)
    (ht : 1000 - 1000 * s.crystal ≤ s.temp ∧ s.temp ≤ 1000) :
    ∃ mu, (flowLava m).bulkViscosity s = .ok mu ∧ 1 ≤ mu ∧ mu ≤ 2 ∧ (s.crystal = 0 → mu = 1) := by
  obtain ⟨mu, h2, h5⟩ := hm.viscosity s h0 h1 ht
  refine ⟨mu, ?_, h5⟩
  unfold Lava.bulkViscosity
  have h2 : (flowLava m).melt.viscosity s = .ok mu := h2
  have h3 : (flowLava m).rel.relative s = .ok 1 := long_kd s h1
  have h4 : (flowLava m).bub.relative s = .ok 1 := by
    simp [flowLava, exLava, BubModel.relative]; norm_num
  rw [h2, ok_bind, h3, ok_bind, h4, ok_bind, pure_ok_iff]; ring

theorem flow_basal {len : ℝ} {T : Terrain ℝ} (hT : LongChannel len T) (m : MeltModel ℝ) (s : FlowState ℝ) :
    (flowLava m).basalStress T s = .ok 3 := long_basal hT s

theorem flow_velocity {len : ℝ} {T : Terrain ℝ} (hT : LongChannel len T) {m : MeltModel ℝ} (hm : ThinMelt m) (s : FlowState ℝ) (h0 : 0 ≤ s.crystal) (h1 : s.crystal ≤ 1 / 100)
    (ht : 1000 - 1000 * s.crystal ≤ s.temp ∧ s.temp ≤ 1000) :
    ∃ v, (flowLava m).meanVelocity T s = .ok (v, 3 * v / 1) ∧ 1 / 3 ≤ v ∧
      (s.crystal = 0 → v = 1) := by
  obtain ⟨t0, hy, hy0, hy1, hyz⟩ := long_ryerson s h0 h1
  obtain ⟨mu, hmm, hm1, hm2, hmz⟩ := flow_bulk hm s h0 h1 ht
  refine ⟨binghamVelocity 1 3 mu t0, ?_, ?_, ?_⟩
  · rw [meanVelocity_ok_iff]
    exact ⟨t0, 3, mu, hy, flow_basal hT m s, hmm, by linarith, by norm_num, by rw [hT.depth]; norm_num, by rw [hT.depth], by rw [hT.depth]⟩
  · unfold binghamVelocity
    have a : 1 / 2 ≤ 1 * 3 / (3 * mu) := by
      rw [div_le_div_iff₀ (by norm_num) (by linarith)]; linarith
    have b : 27 / 40 ≤ 1 - 3 / 2 * (t0 / 3) + 1 / 2 * (t0 / 3) ^ 3 := by
      have : 0 ≤ (t0 / 3) ^ 3 := by positivity
      linarith
    nlinarith
  · intro h
    rw [hyz h, hmz h]
    norm_num [binghamVelocity]

/-- One step of the family: it is accepted, and ends the run exactly when the end of the channel is reached. -/
theorem flow_step_melt {len : ℝ} {T : Terrain ℝ} (hT : LongChannel len T) (fs : List (Flux ℝ)) (cr : CrystModel ℝ) (hcr : SlowCryst cr) {m : MeltModel ℝ} (hm : ThinMelt m) (lo eps x0 : ℝ) (hlo : 0 ≤ lo) (heps : 0 < eps) (i : Nat) (hi : 3 * eps * (i + 1) ≤ 1 / 100)
    (w : World ℝ) (h : LongInv T eps x0 i w)
    (H : ∀ (width : ℝ) (w0 : World ℝ), 0 < width → width ≤ 3 → (i = 0 → width = 1) → (∃ y, w0.st = { w.st with strain := y }) →
      w0.terrain = T →
      ∃ q w2, heatBudget (flowModels fs cr m) width 1 w0 = (.ok q, w2) ∧ lo < q ∧ q ≤ 3 * eps) :
    ∃ w', AcceptedStep (flowG fs cr m) w w' ∧ w.st.crystal + lo < w'.st.crystal ∧ (w'.finished = true ↔ len ≤ x0 + (i + 1 : ℕ)) ∧
      (w'.finished = false → LongInv T eps x0 (i + 1) w') := by
  obtain ⟨wt, wi, wf, wr, wp, w0, w1, wz, wT⟩ := h
  have hphi : w.st.crystal ≤ 1 / 100 := by nlinarith
  obtain ⟨v, hv, hvl, hvz⟩ := flow_velocity hT hm w.st w0 hphi wT
  have hvpos : 0 < v := by linarith
  have hE : w.stepEffusion v = 1 := by
    unfold World.stepEffusion
    by_cases hi0 : i = 0
    · rw [wi, hi0, wt]
      rcases hT.rate with h | h <;> simp [hT.depth, hT.width, hvz (wz hi0)]
    · have : (w.iteration == 0) = false := by rw [wi]; simpa using hi0
      rw [this]; simp [wr hi0]
  have hrho : (flowModels fs cr m).lava.density w.st = 1 := exLava_density 1 (.kd 1 0) .ryerson _
  have hdep : w.terrain.depth = 1 := by rw [wt]; exact hT.depth
  have hwid : 1 / v ≤ 3 := by rw [div_le_iff₀ hvpos]; linarith
  have hwid0 : 0 < 1 / v := by positivity
  obtain ⟨q, w2, hheat, hqlo, hq1⟩ := H (1 / v)
    { w with st := { w.st with strain := 3 * v / 1 }, effusionRate := w.stepEffusion v } hwid0 hwid
    (fun h0 => by rw [hvz (wz h0)]; norm_num) ⟨_, rfl⟩ wt
  have hq0 : 0 < q := by linarith
  obtain ⟨y, es0, hto, _, _⟩ := heatBudget_ok hheat
  have f1 : w2.terrain = T := by rw [hto]; exact wt
  have f2 : w2.st = { w.st with strain := y } := by rw [hto]; rfl
  obtain ⟨t0, hy, _, _⟩ := long_ryerson w2.st (by rw [f2]; exact w0) (by rw [f2]; exact hphi)
  obtain ⟨mu, hmu, _, _⟩ := flow_bulk hm w2.st (by rw [f2]; exact w0) (by rw [f2]; exact hphi) (by rw [f2]; exact wT)
  obtain ⟨v2, hv2, _, _⟩ := flow_velocity hT hm w2.st (by rw [f2]; exact w0) (by rw [f2]; exact hphi) (by rw [f2]; exact wT)
  obtain ⟨r, hr, hr1⟩ := hcr.rate w.st
  have hr0 : 0 < r := by linarith
  -- the new state
  have e1 : w.st.crystal + -(q / r) * (-r) * (flowG fs cr m).dx = w.st.crystal + q := by
    show w.st.crystal + -(q / r) * (-r) * 1 = _; field_simp
  have e2 : w.st.temp + -(q / r) * (flowG fs cr m).dx = w.st.temp - q / r := by
    show w.st.temp + -(q / r) * 1 = _; ring
  have hnew : w.st.crystal + q ≤ 3 * eps * (i + 1) := by nlinarith
  have hqr : q / r ≤ 1000 * q := by
    rw [div_le_iff₀ hr0]; nlinarith
  have hqr0 : 0 < q / r := by positivity
  have hT1 : 1000 - 1000 * (w.st.crystal + q) ≤ w.st.temp - q / r := by linarith [wT.1]
  have hT2 : w.st.temp - q / r ≤ 1000 := by linarith [wT.2]
  have hnew0 : 0 ≤ w.st.crystal + q := by positivity
  have hstop : stopTest (flowG fs cr m) w.terrain
      { crystal := w.st.crystal + -(q / r) * (-r) * (flowG fs cr m).dx,
        temp := w.st.temp + -(q / r) * (flowG fs cr m).dx, pos := w.st.pos + (flowG fs cr m).dx,
        time := w.st.time + 1 / v, strain := 3 * v / 1 } = .ok (leB len (w.st.pos + 1)) := by
    rw [e1, e2]
    generalize hs : (FlowState.mk (w.st.crystal + q) (w.st.temp - q / r)
      (w.st.pos + (flowG fs cr m).dx) (w.st.time + 1 / v) (3 * v / 1) : FlowState ℝ) = s'
    have g1 : s'.crystal = w.st.crystal + q := by rw [← hs]
    have g2 : s'.temp = w.st.temp - q / r := by rw [← hs]
    have g3 : s'.pos = w.st.pos + 1 := by rw [← hs]; rfl
    unfold stopTest
    rw [if_neg]
    · have hnc : (flowG fs cr m).models.lava.notCompatible s' = .ok false := by
        show (RelModel.kd 1 0 : RelModel ℝ).notCompatible _ = _
        unfold RelModel.notCompatible
        dsimp only
        rw [div_of_ne one_ne_zero, ok_bind, pure_ok_iff, Bool.eq_false_iff, g1]
        simp only [ne_eq, ltB_real, not_lt]
        rw [div_one, show (1.0 : ℝ) = 1 by norm_num]; linarith
      rw [hnc, ok_bind]
      simp only [Bool.false_eq_true, if_false]
      obtain ⟨t1, hy1, _, hy2, _⟩ := long_ryerson s' (by rw [g1]; exact hnew0) (by rw [g1]; linarith)
      have hyc : (flowG fs cr m).models.lava.yieldNotCompatible w.terrain s' = .ok false := by
        show (flowLava m).yieldNotCompatible w.terrain s' = _
        rw [wt]
        unfold Lava.yieldNotCompatible
        have : (flowLava m).yieldStrength s' = .ok t1 := hy1
        rw [this, ok_bind, flow_basal hT m, ok_bind, pure_ok_iff, Bool.eq_false_iff]
        simp only [ne_eq, leB_real, not_le]
        linarith
      rw [hyc, ok_bind, wt, g3]
      simp only [Bool.false_eq_true, if_false, pure_ok_iff]
      rw [hT.maxLength]
    · simp only [leB_real]
      show ¬ (s'.temp ≤ cr.solidTemperature)
      rw [g2, hcr.solid]
      linarith
  obtain ⟨w', h1, h2, h3, h4, h5⟩ := singleStep_forward (flowG fs cr m) w v (3 * v / 1) (1 / v) (Real.pi / 2)
    q r (-(q / r)) w2 mu 500 v2 (3 * v2 / 1) t0 3 (1 / v) (3 * v / 1) _
    (by rw [wt]; exact hv)
    (by rw [Bool.eq_false_iff]; simp only [ne_eq, leB_real]; norm_num; linarith)
    (by
      rw [hE, hdep]
      show PyNum.div (1 : ℝ) (v * 1) = _
      rw [div_of_ne (by rw [mul_one]; exact hvpos.ne'), mul_one])
    (by rw [wt]; exact hT.slope _) (by rw [hdep]; exact hheat)
    hr
    (by
      rw [hE]
      show PyNum.div _ (1 * (flowModels fs cr m).lava.density w.st * 1 * r) = _
      rw [hrho, div_of_ne (by norm_num; exact hr0.ne')]
      congr 1
      ring)
    (by
      rw [Bool.eq_false_iff, e1]; simp only [ne_eq, leB_real, not_le]
      linarith)
    hmu rfl (by rw [f1]; exact hv2) hy (by rw [f1]; exact flow_basal hT m _)
    (by show PyNum.div (1 : ℝ) v = _; rw [div_of_ne hvpos.ne'])
    (by rw [hdep, div_of_ne one_ne_zero]; norm_num)
    hstop
  have hacc : AcceptedStep (flowG fs cr m) w w' := ⟨wf, h1, h2⟩
  refine ⟨w', hacc, by rw [h5]; dsimp only; rw [e1]; linarith, ?_, fun _ => ?_⟩
  · rw [h3, wf, Bool.false_or, leB_real, wp]; push_cast; rw [add_assoc]
  · rename_i hnf
    have heff : w'.effusionRate = 1 := by
      obtain ⟨A⟩ := acceptedFacts hacc
      rw [A.eff_eq]
      have : A.v = v := by
        have := A.hv
        rw [wt] at this
        have h6 : (flowG fs cr m).models.lava.meanVelocity T w.st = .ok (v, 3 * v / 1) := hv
        rw [h6] at this
        rw [Except.ok.injEq, Prod.mk.injEq] at this
        exact this.1.symm
      rw [this, hE]
    exact
      { terrain := by rw [h4, wt]
        iter := by rw [h2, wi]
        unfinished := hnf
        rate := fun _ => heff
        pos := by
          rw [h5]; show w.st.pos + 1 = _; rw [wp]; push_cast; ring
        phi0 := by rw [h5]; dsimp only; rw [e1]; exact hnew0
        phi1 := by rw [h5]; dsimp only; rw [e1]; push_cast; exact hnew
        start := fun h => absurd h (by omega)
        temp := by rw [h5]; dsimp only; rw [e1, e2]; exact ⟨hT1, hT2⟩ }

/-- Fluxes that cool the flow slowly: at most `eps` per metre of width. -/
def Gentle (fs : List (Flux ℝ)) (T : Terrain ℝ) (eps : ℝ) (cr : CrystModel ℝ := .basic 0 1 0 1000) (m : MeltModel ℝ := .basic 1 1000) : Prop :=
  ∀ (width : ℝ) (w0 : World ℝ), 0 < width → width ≤ 3 → 0 ≤ w0.st.crystal → w0.st.crystal ≤ 1 / 100 →
    (1000 - 1000 * w0.st.crystal ≤ w0.st.temp ∧ w0.st.temp ≤ 1000) → w0.terrain = T →
    ∃ q w2, heatBudget (flowModels fs cr m) width 1 w0 = (.ok q, w2) ∧ 0 < q ∧ q ≤ 3 * eps

theorem gentle_rain (T : Terrain ℝ) (eps : ℝ) (heps : 0 < eps) (cr : CrystModel ℝ := .basic 0 1 0 1000)
    (m : MeltModel ℝ := .basic 1 1000) : Gentle [.rain eps 1 1] T eps cr m := by
  intro width w0 h0 h1 _ _ _ _
  obtain ⟨w2, hw2⟩ := rain_budget (flowModels [.rain eps 1 1] cr m) eps 1 1 width 1 w0 rfl
  exact ⟨_, w2, hw2, by positivity, by nlinarith⟩

theorem flow_gentle_step_melt {len : ℝ} {T : Terrain ℝ} (hT : LongChannel len T) (fs : List (Flux ℝ)) (eps x0 : ℝ) (cr : CrystModel ℝ) (hcr : SlowCryst cr) {m : MeltModel ℝ} (hm : ThinMelt m) (hfs : Gentle fs T eps cr m) (heps : 0 < eps)
    (i : Nat) (hi : 3 * eps * (i + 1) ≤ 1 / 100) (w : World ℝ) (h : LongInv T eps x0 i w) :
    ∃ w', AcceptedStep (flowG fs cr m) w w' ∧ (w'.finished = true ↔ len ≤ x0 + (i + 1 : ℕ)) ∧
      (w'.finished = false → LongInv T eps x0 (i + 1) w') := by
  obtain ⟨w', h1, _, h3⟩ := flow_step_melt hT fs cr hcr hm 0 eps x0 le_rfl heps i hi w h fun width w0 h0 h1 _ h3 h4 => by
    obtain ⟨y, h3⟩ := h3
    have : w.st.crystal ≤ 1 / 100 := by have := h.phi1; nlinarith
    exact hfs width w0 h0 h1 (by rw [h3]; exact h.phi0) (by rw [h3]; exact this) (by rw [h3]; exact h.temp) h4
  exact ⟨w', h1, h3⟩

/-- The whole run: it takes exactly `n` accepted steps to reach the end of a channel that is between `n - 1` and
    `n` metres long. -/
theorem flow_run_melt {len : ℝ} {T : Terrain ℝ} (hT : LongChannel len T) (fs : List (Flux ℝ)) (eps x0 : ℝ) (cr : CrystModel ℝ) (hcr : SlowCryst cr) {m : MeltModel ℝ} (hm : ThinMelt m) (hfs : Gentle fs T eps cr m) (heps : 0 < eps)
    (n : Nat) (hn : 1 ≤ n) (hsmall : 3 * eps * n ≤ 1 / 100) (h1 : x0 + n - 1 < len) (h2 : len ≤ x0 + n)
    (w0 : World ℝ) (h0 : LongInv T eps x0 0 w0) :
    ∃ ws w', ws 0 = w0 ∧ AcceptedRun (flowG fs cr m) n ws ∧ w' = ws n ∧ w'.finished = true ∧
      runLoop (flowG fs cr m) n w0 = some (.ok (), w') ∧
      ∀ j, j < n → runLoop (flowG fs cr m) j w0 = none := by
  have key : ∀ (k i : Nat), i + k = n → 1 ≤ k → ∀ w, LongInv T eps x0 i w →
      ∃ ws : Nat → World ℝ, ws 0 = w ∧ AcceptedRun (flowG fs cr m) k ws ∧ (ws k).finished = true ∧
        runLoop (flowG fs cr m) k w = some (.ok (), ws k) ∧ ∀ j, j < k → runLoop (flowG fs cr m) j w = none := by
    intro k
    induction k with
    | zero => intro i _ h; omega
    | succ k ih =>
      intro i hik _ w hinv
      have hi : 3 * eps * (i + 1) ≤ 1 / 100 := by
        have : ((i : ℝ) + 1) ≤ n := by exact_mod_cast (by omega : i + 1 ≤ n)
        nlinarith
      obtain ⟨w2, hacc, hfin, hnext⟩ := flow_gentle_step_melt hT fs eps x0 cr hcr hm hfs heps i hi w hinv
      by_cases hk : k = 0
      · subst hk
        have hf : w2.finished = true := by
          rw [hfin, show i + 1 = n by omega]; exact h2
        refine ⟨fun j => if j = 0 then w else w2, rfl, ?_, hf, ?_, ?_⟩
        · intro j hj
          obtain rfl : j = 0 := by omega
          exact hacc
        · unfold runLoop
          rw [hinv.unfinished, hacc.2.1]
          simp only [Bool.false_eq_true, if_false]
          unfold runLoop
          rw [hf]; rfl
        · intro m hm
          obtain rfl : m = 0 := by omega
          unfold runLoop; rw [hinv.unfinished]; rfl
      · have hnf : w2.finished = false := by
          rw [Bool.eq_false_iff, ne_eq, hfin, not_le]
          have : ((i + 1 : ℕ) : ℝ) ≤ (n : ℝ) - 1 := by
            have : ((i + 1 + 1 : ℕ) : ℝ) ≤ n := by exact_mod_cast (by omega : i + 1 + 1 ≤ n)
            push_cast at this ⊢; linarith
          linarith
        obtain ⟨ws, g1, g2, g3, g4, g5⟩ := ih (i + 1) (by omega) (by omega) w2 (hnext hnf)
        refine ⟨fun j => match j with | 0 => w | j + 1 => ws j, rfl, ?_, g3, ?_, ?_⟩
        · intro j hj
          cases j with
          | zero => show AcceptedStep _ w (ws 0); rw [g1]; exact hacc
          | succ j => exact g2 j (by omega)
        · unfold runLoop
          rw [hinv.unfinished, hacc.2.1]
          simp only [Bool.false_eq_true, if_false]
          exact g4
        · intro m hm
          cases m with
          | zero => unfold runLoop; rw [hinv.unfinished]; rfl
          | succ m =>
            unfold runLoop
            rw [hinv.unfinished, hacc.2.1]
            simp only [Bool.false_eq_true, if_false]
            exact g5 m (by omega)
  obtain ⟨ws, g1, g2, g3, g4, g5⟩ := key n 0 (by omega) hn _ h0
  exact ⟨ws, ws n, g1, g2, rfl, g3, g4, g5⟩

theorem flow_run {len : ℝ} {T : Terrain ℝ} (hT : LongChannel len T) (fs : List (Flux ℝ)) (eps x0 : ℝ) (cr : CrystModel ℝ) (hcr : SlowCryst cr) (hfs : Gentle fs T eps cr) (heps : 0 < eps)
    (n : Nat) (hn : 1 ≤ n) (hsmall : 3 * eps * n ≤ 1 / 100) (h1 : x0 + n - 1 < len) (h2 : len ≤ x0 + n)
    (w0 : World ℝ) (h0 : LongInv T eps x0 0 w0) :
    ∃ ws w', ws 0 = w0 ∧ AcceptedRun (flowG fs cr) n ws ∧ w' = ws n ∧ w'.finished = true ∧
      runLoop (flowG fs cr) n w0 = some (.ok (), w') ∧
      ∀ m, m < n → runLoop (flowG fs cr) m w0 = none :=
  flow_run_melt hT fs eps x0 cr hcr thin_basic hfs heps n hn hsmall h1 h2 w0 h0

theorem long_bulk (s : FlowState ℝ) (h0 : 0 ≤ s.crystal) (h1 : s.crystal ≤ 1 / 100) (ht : 1000 - 1000 * s.crystal ≤ s.temp ∧ s.temp ≤ 1000) :
    ∃ mu, (exLava 1 (.kd 1 0) .ryerson).bulkViscosity s = .ok mu ∧ 1 ≤ mu ∧ mu ≤ 2 ∧ (s.crystal = 0 → mu = 1) := flow_bulk thin_basic s h0 h1 ht

theorem long_velocity {len : ℝ} {T : Terrain ℝ} (hT : LongChannel len T) (s : FlowState ℝ) (h0 : 0 ≤ s.crystal) (h1 : s.crystal ≤ 1 / 100)
    (ht : 1000 - 1000 * s.crystal ≤ s.temp ∧ s.temp ≤ 1000) :
    ∃ v, (exLava 1 (.kd 1 0) .ryerson).meanVelocity T s = .ok (v, 3 * v / 1) ∧ 1 / 3 ≤ v ∧
      (s.crystal = 0 → v = 1) := flow_velocity hT thin_basic s h0 h1 ht

theorem long_run (eps x0 len : ℝ) (heps : 0 < eps) (n : Nat) (hn : 1 ≤ n) (hsmall : 3 * eps * n ≤ 1 / 100)
    (h1 : x0 + n - 1 < len) (h2 : len ≤ x0 + n) :
    ∃ ws w', ws 0 = longWorld x0 len ∧ AcceptedRun (longG eps) n ws ∧ w' = ws n ∧ w'.finished = true ∧
      runLoop (longG eps) n (longWorld x0 len) = some (.ok (), w') ∧
      ∀ m, m < n → runLoop (longG eps) m (longWorld x0 len) = none :=
  flow_run (longTerrain_channel len) _ eps x0 _ slow_basic (gentle_rain _ eps heps) heps n hn hsmall h1 h2 _ (longInv_zero eps x0 len)

/-- A flow above hot ground: it cools below the temperature of its base in the first step, then the conductive
    "loss" is a gain and the second step is given up after the heat budget. -/
theorem stall_run :
    ∃ w1 w2, AcceptedStep (flowG [.conduction 999.999 100]) (longWorld 0 10) w1 ∧ w1.finished = false ∧
      RejectedStep (flowG [.conduction 999.999 100]) w1 w2 ∧
      runLoop (flowG [.conduction 999.999 100]) 2 (longWorld 0 10) = some (.ok (), w2) ∧
      ∃ v x, (flowG [.conduction 999.999 100]).models.lava.meanVelocity (longTerrain 10) w1.st = .ok (v, x) ∧ 0 < v := by
  have hsi : StrainIndependent (flowModels [.conduction 999.999 100]).lava := fun _ _ => rfl
  have hves : ∀ s, (flowModels [.conduction 999.999 100]).lava.vesicleFraction s = 0 := fun s => by
    show (VesicleModel.constant 0 : VesicleModel ℝ).fraction s = 0
    simp [VesicleModel.fraction]
  have budget : ∀ (width : ℝ) (w0 : World ℝ), ∃ w2, heatBudget (flowModels [.conduction 999.999 100]) width 1 w0 =
      (.ok (1.929 ^ 2 * (w0.st.temp - 999.999) * width), w2) := by
    intro width w0
    refine (C45_budget_is_sum hsi width 1 _ w0).mpr ⟨[1.929 ^ 2 * (w0.st.temp - 999.999) * width], ?_, by simp⟩
    refine List.Forall₂.cons ⟨by norm_num, ?_⟩ List.Forall₂.nil
    rw [hves]; norm_num
  obtain ⟨w1, hacc, hgrow, hfin, hnext⟩ := flow_step_melt (longTerrain_channel 10) [.conduction 999.999 100] _ slow_basic thin_basic (1 / 500) (1 / 300) 0 (by norm_num)
    (by norm_num) 0 (by norm_num) (longWorld 0 10) (longInv_zero _ 0 10) (fun width w0 _ _ h2 h3 _ => by
      obtain ⟨y, h3⟩ := h3
      obtain ⟨w2, hw2⟩ := budget width w0
      have ht : w0.st.temp = 1000 := by rw [h3]; rfl
      refine ⟨_, w2, hw2, ?_, ?_⟩ <;> rw [ht, h2 rfl] <;> norm_num)
  have hnf : w1.finished = false := by
    rw [Bool.eq_false_iff, ne_eq, hfin]; norm_num
  obtain ⟨wt, wi, wf, wr, wp, p0, p1, wz, wT⟩ := hnext hnf
  have hphi : w1.st.crystal ≤ 1 / 100 := by norm_num at p1 ⊢; linarith
  have hgrow' : 1 / 500 < w1.st.crystal := by
    have : (longWorld 0 10).st.crystal = 0 := rfl
    rw [this] at hgrow; linarith
  obtain ⟨v, hv, hvl, _⟩ := long_velocity (longTerrain_channel 10) w1.st p0 hphi wT
  have hvpos : 0 < v := by linarith
  have hE : w1.stepEffusion v = 1 := by
    unfold World.stepEffusion
    have : (w1.iteration == 0) = false := by rw [wi]; rfl
    rw [this]; simp [wr (by norm_num)]
  have hdep : w1.terrain.depth = 1 := by rw [wt]; rfl
  obtain ⟨w2, hheat⟩ := budget (1 / v)
    { w1 with st := { w1.st with strain := 3 * v / 1 }, effusionRate := w1.stepEffusion v }
  obtain ⟨y, es0, hto, _, _⟩ := heatBudget_ok hheat
  have hneg : 1.929 ^ 2 * (w1.st.temp - 999.999) * (1 / v) ≤ 0 := by
    have h1 : w1.st.temp - 999.999 ≤ 0 := by
      obtain ⟨rate, _, _, h8, h9, _⟩ := C08_crystallisation_tied_to_cooling _ _ _ hacc
      have h10 : PyNum.div (1 : ℝ) (1000 - 0) = .ok rate := h8
      rw [div_of_ne (by norm_num), Except.ok.injEq] at h10
      have h11 : (longWorld 0 10).st.crystal = 0 := rfl
      have h12 : (longWorld 0 10).st.temp = 1000 := rfl
      rw [← h10, h11, h12] at h9
      norm_num at h9 ⊢
      linarith
    have h2 : 0 ≤ 1 / v := by positivity
    have h3 : 1.929 ^ 2 * (w1.st.temp - 999.999) ≤ 0 := mul_nonpos_of_nonneg_of_nonpos (by norm_num) h1
    exact mul_nonpos_of_nonpos_of_nonneg h3 h2
  have hrho : (flowModels [.conduction 999.999 100]).lava.density w1.st = 1 := exLava_density 1 (.kd 1 0) .ryerson _
  have hstep := singleStep_noGrowth (flowG [.conduction 999.999 100]) w1 v (3 * v / 1) (1 / v) (Real.pi / 2)
    (1.929 ^ 2 * (w1.st.temp - 999.999) * (1 / v)) (1 / 1000) (-(1.929 ^ 2 * (w1.st.temp - 999.999) * (1 / v)) * 1000) w2
    (by rw [wt]; exact hv)
    (by rw [Bool.eq_false_iff]; simp only [ne_eq, leB_real]; norm_num; linarith)
    (by
      rw [hE, hdep]
      show PyNum.div (1 : ℝ) (v * 1) = _
      rw [div_of_ne (by rw [mul_one]; exact hvpos.ne'), mul_one])
    (by rw [wt]; rfl) (by rw [hdep]; exact hheat)
    (by
      show PyNum.div (1 : ℝ) (1000 - 0) = _
      rw [div_of_ne (by norm_num)]; norm_num)
    (by
      rw [hE]
      show PyNum.div _ (1 * (flowModels [.conduction 999.999 100]).lava.density w1.st * 1 * (1 / 1000)) = _
      rw [hrho, div_of_ne (by norm_num)]
      congr 1
      ring)
    (by
      rw [leB_real]
      show w1.st.crystal + -(1.929 ^ 2 * (w1.st.temp - 999.999) * (1 / v)) * 1000 * (-(1 / 1000)) * 1 ≤ w1.st.crystal
      linarith)
  have hrej : RejectedStep (flowG [.conduction 999.999 100]) w1 { w2 with finished := true } := by
    refine ⟨wf, hstep, ?_⟩
    have : w2.iteration = w1.iteration := by rw [hto]; rfl
    show w2.iteration ≠ _
    omega
  refine ⟨w1, _, hacc, hnf, hrej, ?_, v, _, hv, hvpos⟩
  have hl : runLoop (flowG [.conduction 999.999 100]) 2 (longWorld 0 10) =
      runLoop (flowG [.conduction 999.999 100]) 1 w1 := by
    conv_lhs => unfold runLoop
    rw [hacc.1, hacc.2.1]
    rfl
  rw [hl]
  exact runLoop_one _ _ _ wf hstep rfl

end PyFlowGo
