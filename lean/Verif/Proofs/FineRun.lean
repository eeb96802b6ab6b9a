import Verif.Proofs.LongRun
/-
  The flow of `LongRun` cooled by rain, with any step size.
-/
namespace PyFlowGo
open Spec

noncomputable def fineG (eps dx : ℝ) : Integrator ℝ :=
  { dx := dx, models := flowModels [.rain eps 1 1], massConservation := false }

/-- The situation after `i` steps of length `dx`. -/
structure FineInv (T : Terrain ℝ) (eps dx : ℝ) (i : Nat) (w : World ℝ) : Prop where
  terrain : w.terrain = T
  iter : w.iteration = i
  unfinished : w.finished = false
  rate : i ≠ 0 → w.effusionRate = 1
  pos : w.st.pos = i * dx
  phi0 : 0 ≤ w.st.crystal
  phi1 : w.st.crystal ≤ 3 * eps * (i * dx)
  start : i = 0 → w.st.crystal = 0
  temp : w.st.temp = 1000 - 1000 * w.st.crystal

theorem fineInv_zero (eps dx len : ℝ) : FineInv (longTerrain len) eps dx 0 (longWorld 0 len) :=
  { terrain := rfl, iter := rfl, unfinished := rfl, rate := fun h => absurd rfl h,
    pos := by show (0:ℝ) = _; simp
    phi0 := le_refl (0 : ℝ), phi1 := by show (0 : ℝ) ≤ _; simp
    start := fun _ => rfl, temp := by show (1000 : ℝ) = 1000 - 1000 * 0; norm_num }

theorem fine_step {len : ℝ} {T : Terrain ℝ} (hT : LongChannel len T) (eps dx : ℝ) (heps : 0 < eps) (hdx : 0 < dx)
    (i : Nat) (hi : 3 * eps * ((i + 1 : ℕ) * dx) ≤ 1 / 100) (w : World ℝ) (h : FineInv T eps dx i w) :
    ∃ w', AcceptedStep (fineG eps dx) w w' ∧ (w'.finished = true ↔ len ≤ (i + 1 : ℕ) * dx) ∧
      (w'.finished = false → FineInv T eps dx (i + 1) w') := by
  obtain ⟨wt, wi, wf, wr, wp, w0, w1, wz, wT⟩ := h
  push_cast at hi
  have hed : 0 < eps * dx := by positivity
  have hphi : w.st.crystal ≤ 1 / 100 := by nlinarith
  have wT' : 1000 - 1000 * w.st.crystal ≤ w.st.temp ∧ w.st.temp ≤ 1000 := by rw [wT]; constructor <;> linarith
  obtain ⟨v, hv, hvl, hvz⟩ := long_velocity hT w.st w0 hphi wT'
  have hvpos : 0 < v := by linarith
  have hE : w.stepEffusion v = 1 := by
    unfold World.stepEffusion
    by_cases hi0 : i = 0
    · rw [wi, hi0, wt]
      rcases hT.rate with h | h <;> simp [hT.depth, hT.width, hvz (wz hi0)]
    · have : (w.iteration == 0) = false := by rw [wi]; simpa using hi0
      rw [this]; simp [wr hi0]
  have hrho : (flowModels [.rain eps 1 1]).lava.density w.st = 1 := exLava_density 1 (.kd 1 0) .ryerson _
  have hdep : w.terrain.depth = 1 := by rw [wt]; exact hT.depth
  have hwid : 1 / v ≤ 3 := by rw [div_le_iff₀ hvpos]; linarith
  have hwid0 : 0 < 1 / v := by positivity
  obtain ⟨w2, hheat⟩ := rain_budget (flowModels [.rain eps 1 1]) eps 1 1 (1 / v) 1
    { w with st := { w.st with strain := 3 * v / 1 }, effusionRate := w.stepEffusion v } rfl
  obtain ⟨q, hq⟩ : ∃ q, q = eps * 1 * 1 * (1 / v) := ⟨_, rfl⟩
  rw [← hq] at hheat
  have hq0 : 0 < q := by rw [hq]; positivity
  have hq1 : q ≤ 3 * eps := by rw [hq]; nlinarith
  obtain ⟨y, es0, hto, _, _⟩ := heatBudget_ok hheat
  have f1 : w2.terrain = T := by rw [hto]; exact wt
  have f2 : w2.st = { w.st with strain := y } := by rw [hto]; rfl
  obtain ⟨t0, hy, _, _⟩ := long_ryerson w2.st (by rw [f2]; exact w0) (by rw [f2]; exact hphi)
  obtain ⟨mu, hmu, _, _⟩ := long_bulk w2.st (by rw [f2]; exact w0) (by rw [f2]; exact hphi) (by rw [f2]; exact wT')
  obtain ⟨v2, hv2, _, _⟩ := long_velocity hT w2.st (by rw [f2]; exact w0) (by rw [f2]; exact hphi) (by rw [f2]; exact wT')
  have hqd : 0 < q * dx := by positivity
  have e1 : w.st.crystal + -(1000 * q) * (-(1 / 1000)) * dx = w.st.crystal + q * dx := by ring
  have e2 : w.st.temp + -(1000 * q) * dx = w.st.temp - 1000 * (q * dx) := by ring
  have hnew : w.st.crystal + q * dx ≤ 3 * eps * ((i + 1) * dx) := by nlinarith
  have hT1 : w.st.temp - 1000 * (q * dx) = 1000 - 1000 * (w.st.crystal + q * dx) := by rw [wT]; ring
  have hnew0 : 0 ≤ w.st.crystal + q * dx := by positivity
  have hstop : stopTest (fineG eps dx) w.terrain
      { crystal := w.st.crystal + -(1000 * q) * (-(1 / 1000)) * dx,
        temp := w.st.temp + -(1000 * q) * dx, pos := w.st.pos + dx,
        time := w.st.time + dx / v, strain := 3 * v / 1 } = .ok (leB len (w.st.pos + dx)) := by
    rw [e1, e2]
    generalize hs : (FlowState.mk (w.st.crystal + q * dx) (w.st.temp - 1000 * (q * dx))
      (w.st.pos + dx) (w.st.time + dx / v) (3 * v / 1) : FlowState ℝ) = s'
    have g1 : s'.crystal = w.st.crystal + q * dx := by rw [← hs]
    have g2 : s'.temp = w.st.temp - 1000 * (q * dx) := by rw [← hs]
    have g3 : s'.pos = w.st.pos + dx := by rw [← hs]
    unfold stopTest
    rw [if_neg]
    · have hnc : (fineG eps dx).models.lava.notCompatible s' = .ok false := by
        show (RelModel.kd 1 0 : RelModel ℝ).notCompatible _ = _
        unfold RelModel.notCompatible
        dsimp only
        rw [div_of_ne one_ne_zero, ok_bind, pure_ok_iff, Bool.eq_false_iff, g1]
        simp only [ne_eq, ltB_real, not_lt]
        rw [div_one, show (1.0 : ℝ) = 1 by norm_num]; linarith
      rw [hnc, ok_bind]
      simp only [Bool.false_eq_true, if_false]
      obtain ⟨t1, hy1, _, hy2, _⟩ := long_ryerson s' (by rw [g1]; exact hnew0) (by rw [g1]; linarith)
      have hyc : (fineG eps dx).models.lava.yieldNotCompatible w.terrain s' = .ok false := by
        show (exLava 1 (.kd 1 0) .ryerson).yieldNotCompatible w.terrain s' = _
        rw [wt]
        unfold Lava.yieldNotCompatible
        have : (exLava 1 (.kd 1 0) .ryerson).yieldStrength s' = .ok t1 := hy1
        rw [this, ok_bind, long_basal hT, ok_bind, pure_ok_iff, Bool.eq_false_iff]
        simp only [ne_eq, leB_real, not_le]
        linarith
      rw [hyc, ok_bind, wt, g3]
      simp only [Bool.false_eq_true, if_false, pure_ok_iff]
      rw [hT.maxLength]
    · simp only [leB_real]
      show ¬ (s'.temp ≤ 0)
      rw [g2]
      linarith
  obtain ⟨w', h1, h2, h3, h4, h5⟩ := singleStep_forward (fineG eps dx) w v (3 * v / 1) (1 / v) (Real.pi / 2)
    q (1 / 1000) (-(1000 * q)) w2 mu 500 v2 (3 * v2 / 1) t0 3 (dx / v) (3 * v / 1) _
    (by rw [wt]; exact hv)
    (by rw [Bool.eq_false_iff]; simp only [ne_eq, leB_real]; norm_num; linarith)
    (by
      rw [hE, hdep]
      show PyNum.div (1 : ℝ) (v * 1) = _
      rw [div_of_ne (by rw [mul_one]; exact hvpos.ne'), mul_one])
    (by rw [wt]; exact hT.slope _) (by rw [hdep]; exact hheat)
    (by show PyNum.div (1 : ℝ) (1000 - 0) = _; rw [div_of_ne (by norm_num)]; norm_num)
    (by
      rw [hE]
      show PyNum.div _ (1 * (flowModels [.rain eps 1 1]).lava.density w.st * 1 * (1 / 1000)) = _
      rw [hrho, div_of_ne (by norm_num)]
      congr 1
      ring)
    (by
      rw [Bool.eq_false_iff]; simp only [ne_eq, leB_real, not_le]
      show w.st.crystal < w.st.crystal + -(1000 * q) * (-(1 / 1000)) * dx
      rw [e1]
      linarith)
    hmu rfl (by rw [f1]; exact hv2) hy (by rw [f1]; exact long_basal hT _)
    (by show PyNum.div dx v = _; rw [div_of_ne hvpos.ne'])
    (by rw [hdep, div_of_ne one_ne_zero]; norm_num)
    hstop
  have hacc : AcceptedStep (fineG eps dx) w w' := ⟨wf, h1, h2⟩
  refine ⟨w', hacc, ?_, fun hnf => ?_⟩
  · rw [h3, wf, Bool.false_or, leB_real, wp]; push_cast; rw [add_mul, one_mul]
  · have heff : w'.effusionRate = 1 := by
      obtain ⟨A⟩ := acceptedFacts hacc
      rw [A.eff_eq]
      have : A.v = v := by
        have := A.hv
        rw [wt] at this
        have h6 : (fineG eps dx).models.lava.meanVelocity T w.st = .ok (v, 3 * v / 1) := hv
        rw [h6] at this
        rw [Except.ok.injEq, Prod.mk.injEq] at this
        exact this.1.symm
      rw [this, hE]
    exact
      { terrain := by rw [h4, wt]
        iter := by rw [h2, wi]
        unfinished := hnf
        rate := fun _ => heff
        pos := by
          rw [h5]; show w.st.pos + dx = _; rw [wp]; push_cast; ring
        phi0 := by rw [h5]; show 0 ≤ w.st.crystal + -(1000 * q) * (-(1 / 1000)) * dx; rw [e1]; exact hnew0
        phi1 := by
          rw [h5]; show w.st.crystal + -(1000 * q) * (-(1 / 1000)) * dx ≤ _; rw [e1]; push_cast; exact hnew
        start := fun h => absurd h (by omega)
        temp := by
          rw [h5]
          show w.st.temp + -(1000 * q) * dx = 1000 - 1000 * (w.st.crystal + -(1000 * q) * (-(1 / 1000)) * dx)
          rw [e1, e2]; exact hT1 }

/-- The whole run along a channel of `n` steps: `n` accepted steps. -/
theorem fine_run (eps dx : ℝ) (heps : 0 < eps) (hdx : 0 < dx) (n : Nat) (hn : 1 ≤ n) (hsmall : 3 * eps * (n * dx) ≤ 1 / 100) :
    ∃ w', runLoop (fineG eps dx) n (longWorld 0 (n * dx)) = some (.ok (), w') ∧
      ∃ ws : Nat → World ℝ, ws 0 = longWorld 0 (n * dx) ∧ AcceptedRun (fineG eps dx) n ws ∧ w' = ws n ∧
        ∀ i, i < n → FineInv (longTerrain (n * dx)) eps dx i (ws i) := by
  have hT := longTerrain_channel (n * dx)
  have key : ∀ (k i : Nat), i + k = n → 1 ≤ k → ∀ w, FineInv (longTerrain (n * dx)) eps dx i w →
      ∃ ws : Nat → World ℝ, ws 0 = w ∧ AcceptedRun (fineG eps dx) k ws ∧
        runLoop (fineG eps dx) k w = some (.ok (), ws k) ∧
        ∀ j, j < k → FineInv (longTerrain (n * dx)) eps dx (i + j) (ws j) := by
    intro k
    induction k with
    | zero => intro i _ h; omega
    | succ k ih =>
      intro i hik _ w hinv
      have hi : 3 * eps * ((i + 1 : ℕ) * dx) ≤ 1 / 100 := by
        have : ((i + 1 : ℕ) : ℝ) ≤ n := by exact_mod_cast (by omega : i + 1 ≤ n)
        have h2 : 3 * eps * ((i + 1 : ℕ) * dx) ≤ 3 * eps * (n * dx) := by gcongr
        linarith
      obtain ⟨w2, hacc, hfin, hnext⟩ := fine_step hT eps dx heps hdx i hi w hinv
      by_cases hk : k = 0
      · subst hk
        have hf : w2.finished = true := by
          rw [hfin, show i + 1 = n by omega]
        refine ⟨fun j => if j = 0 then w else w2, rfl, ?_, ?_, ?_⟩
        · intro j hj
          obtain rfl : j = 0 := by omega
          exact hacc
        · unfold runLoop
          rw [hinv.unfinished, hacc.2.1]
          simp only [Bool.false_eq_true, if_false]
          unfold runLoop
          rw [hf]; rfl
        · intro j hj
          obtain rfl : j = 0 := by omega
          exact hinv
      · have hnf : w2.finished = false := by
          rw [Bool.eq_false_iff, ne_eq, hfin, not_le]
          have : ((i + 1 : ℕ) : ℝ) < n := by exact_mod_cast (by omega : i + 1 < n)
          exact mul_lt_mul_of_pos_right this hdx
        obtain ⟨ws, g1, g2, g4, g5⟩ := ih (i + 1) (by omega) (by omega) w2 (hnext hnf)
        refine ⟨fun j => match j with | 0 => w | j + 1 => ws j, rfl, ?_, ?_, ?_⟩
        · intro j hj
          cases j with
          | zero => show AcceptedStep _ w (ws 0); rw [g1]; exact hacc
          | succ j => exact g2 j (by omega)
        · unfold runLoop
          rw [hinv.unfinished, hacc.2.1]
          simp only [Bool.false_eq_true, if_false]
          exact g4
        · intro j hj
          cases j with
          | zero => exact hinv
          | succ j =>
            have := g5 j (by omega)
            rwa [show i + 1 + j = i + (j + 1) by omega] at this
  obtain ⟨ws, g1, g2, g4, g5⟩ := key n 0 (by omega) hn _ (fineInv_zero eps dx _)
  refine ⟨ws n, g4, ws, g1, g2, rfl, fun i hi => ?_⟩
  have := g5 i hi
  rwa [Nat.zero_add] at this

end PyFlowGo
