import Verif.Proofs.RoundExact
/-
  The run of the exact flow, its equations, and the gradients of the rounded one.
-/
set_option linter.unusedSectionVars false
namespace PyFlowGo
open Spec Rounded

/-- The effusion rate of the exact flow. -/
noncomputable def exactE : ℝ := exactV 1000

theorem exactE_pos : 0 < exactE := lt_of_lt_of_le (by norm_num) (exactV_bounds (T := 1000) (by norm_num)).1

/-- The situation after `i` steps. -/
structure ExactInv (i : Nat) (w : World ℝ) : Prop where
  terrain : w.terrain = exactTerrain
  iter : w.iteration = i
  unfinished : w.finished = false
  rate : i ≠ 0 → w.effusionRate = exactE
  pos : w.st.pos = i
  phi0 : 0 ≤ w.st.crystal
  phi1 : w.st.crystal ≤ i / 2 ^ 15
  temp0 : 1000 - i / 2 ^ 15 ≤ w.st.temp
  temp1 : w.st.temp ≤ 1000
  start : i = 0 → w.st.temp = 1000

theorem exactInv_zero : ExactInv 0 exactWorld where
  terrain := rfl
  iter := rfl
  unfinished := rfl
  rate h := absurd rfl h
  pos := by show (0 : ℝ) = _; simp
  phi0 := le_refl (0 : ℝ)
  phi1 := by show (0 : ℝ) ≤ _; simp
  temp0 := by show _ ≤ (1000 : ℝ); simp
  temp1 := le_refl (1000 : ℝ)
  start _ := rfl

theorem exact_step (i : Nat) (hi : i < 1000) (w : World ℝ) (I : ExactInv i w) :
    ∃ w', AcceptedStep exactG w w' ∧ ExactInv (i + 1) w' := by
  have hi' : (i : ℝ) ≤ 999 := by exact_mod_cast (by omega : i ≤ 999)
  have hTlow : (999 : ℝ) ≤ w.st.temp := by
    have := I.temp0
    have : (i : ℝ) / 2 ^ 15 ≤ 1 := by rw [div_le_one (by norm_num)]; norm_num; linarith
    linarith
  have hTpos : 0 < w.st.temp := by linarith
  obtain ⟨v, hvdef⟩ : ∃ v, v = exactV w.st.temp := ⟨_, rfl⟩
  have hv0 := exactV_bounds hTpos.le
  rw [← hvdef] at hv0
  have hvpos : 0 < v := lt_of_lt_of_le (by norm_num) hv0.1
  have hv := exact_velocity w.st hTpos
  rw [← hvdef] at hv
  have hEp := exactE_pos
  have hE : w.stepEffusion v = exactE := by
    unfold World.stepEffusion
    rw [I.iter]
    by_cases h : i = 0
    · rw [if_pos (by simpa using h), I.terrain, hvdef, I.start h]
      show exactV 1000 * 1 * 1 = _
      rw [mul_one, mul_one]; rfl
    · rw [if_neg (by simpa using h), I.rate h]
  have hwid : channelWidth false (w.stepEffusion v) w.fluxRate v w.terrain.depth (exactLava.density w.st) = .ok (exactE / v) := by
    rw [hE, I.terrain]
    show PyNum.div exactE (v * 1) = _
    rw [mul_one, div_of_ne hvpos.ne']
  obtain ⟨w1, hheat⟩ := rain_budget exactModels 1 1 1 (exactE / v) w.terrain.depth
    { w with st := { w.st with strain := 3 * v / 1 }, effusionRate := w.stepEffusion v } rfl
  rw [show (1 : ℝ) * 1 * 1 * (exactE / v) = exactE / v by ring] at hheat
  obtain ⟨y, es0, htou, _, _⟩ := heatBudget_ok hheat
  have f1 : w1.terrain = exactTerrain := by rw [htou]; exact I.terrain
  have f2 : w1.st = { w.st with strain := y } := by rw [htou]; rfl
  obtain ⟨c, hc⟩ : ∃ c, c = 1 / (v * 2 ^ 20) := ⟨_, rfl⟩
  have hc0 : 0 < c := by rw [hc]; positivity
  have hc1 : c ≤ 1 / 2 ^ 15 := by
    rw [hc]
    refine one_div_le_one_div_of_le (by positivity) ?_
    have := hv0.1
    norm_num at *
    linarith
  have hdt : PyNum.div (-(exactE / v)) (w.stepEffusion v * exactLava.density w.st * exactLava.latentHeat * 1) = .ok (-c) := by
    rw [hE, exact_density]
    show PyNum.div _ (exactE * 1 * 2 ^ 20 * 1) = _
    rw [div_of_ne (by positivity), hc]
    congr 1
    field_simp
  have e1 : w.st.crystal + -c * -1 * 1 = w.st.crystal + c := by ring
  have e2 : w.st.temp + -c * 1 = w.st.temp - c := by ring
  have hcast : (((i + 1 : ℕ)) : ℝ) / 2 ^ 15 = (i : ℝ) / 2 ^ 15 + 1 / 2 ^ 15 := by push_cast; ring
  have hsmall : (i : ℝ) / 2 ^ 15 ≤ 1 / 4 := by rw [div_le_iff₀ (by norm_num)]; norm_num; linarith
  have hc1' : c ≤ 1 / 4 := hc1.trans (by norm_num)
  have p1 := I.phi1
  have p0 := I.phi0
  have hstop : stopTest exactG w.terrain
      { crystal := w.st.crystal + -c * -1 * 1, temp := w.st.temp + -c * 1, pos := w.st.pos + 1,
        time := w.st.time + 1 / v, strain := 3 * v / 1 } = .ok false := by
    rw [e1, e2]
    generalize hs : (FlowState.mk (w.st.crystal + c) (w.st.temp - c) (w.st.pos + 1) (w.st.time + 1 / v) (3 * v / 1) : FlowState ℝ) = s'
    have g1 : s'.crystal = w.st.crystal + c := by rw [← hs]
    have g2 : s'.temp = w.st.temp - c := by rw [← hs]
    have g3 : s'.pos = w.st.pos + 1 := by rw [← hs]
    unfold stopTest
    rw [if_neg]
    · have hnc : exactG.models.lava.notCompatible s' = .ok false := by
        show (RelModel.kd 1 0 : RelModel ℝ).notCompatible _ = _
        unfold RelModel.notCompatible
        dsimp only
        rw [div_of_ne one_ne_zero, ok_bind, pure_ok_iff, Bool.eq_false_iff, g1]
        simp only [ne_eq, ltB_real, not_lt]
        rw [div_one, show (1.0 : ℝ) = 1 by norm_num]; linarith
      have hyc : exactG.models.lava.yieldNotCompatible w.terrain s' = .ok false := by
        show exactLava.yieldNotCompatible w.terrain s' = _
        rw [I.terrain]
        unfold Lava.yieldNotCompatible
        rw [exact_yield, ok_bind, exact_basal, ok_bind, pure_ok_iff, Bool.eq_false_iff]
        simp only [ne_eq, leB_real, not_le]
        have h1 := (exactY_bounds (T := s'.temp) (by rw [g2]; linarith)).2
        refine lt_of_le_of_lt h1 (lt_of_lt_of_le ?_ exact_tau.1)
        norm_num
      rw [hnc, ok_bind]
      simp only [Bool.false_eq_true, if_false]
      rw [hyc, ok_bind, I.terrain, g3, I.pos]
      simp only [Bool.false_eq_true, if_false, pure_ok_iff]
      rw [Bool.eq_false_iff]
      simp only [ne_eq, leB_real, not_le]
      show (i : ℝ) + 1 < 2 ^ 80
      refine lt_of_le_of_lt (b := 1000) (by linarith) (by norm_num)
    · simp only [leB_real]
      show ¬ (s'.temp ≤ 0)
      rw [g2]
      linarith
  obtain ⟨w', h1, h2, h3, h4, h5⟩ := singleStep_forward exactG w v (3 * v / 1) (exactE / v) (1 / 4)
    (exactE / v) 1 (-c) w1 1 500 (exactV w1.st.temp) (3 * exactV w1.st.temp / 1) (exactY w1.st.temp) (Real.sin (1 / 4)) (1 / v) (3 * v / 1) false
    (by rw [I.terrain]; exact hv)
    (by rw [Bool.eq_false_iff]; simp only [ne_eq, leB_real]; norm_num; exact hvpos)
    hwid (by rw [I.terrain]; rfl) hheat
    (by show Except.ok (if _ then _ else _) = _; split <;> rfl) hdt
    (by
      rw [Bool.eq_false_iff]; simp only [ne_eq, leB_real, not_le]
      show w.st.crystal < w.st.crystal + -c * -1 * 1
      rw [e1]; linarith)
    (exact_bulk w1.st (by rw [f2]; exact hTpos.ne')) rfl
    (by rw [f1]; exact exact_velocity w1.st (by rw [f2]; exact hTpos))
    (exact_yield _) (by rw [f1]; exact exact_basal _)
    (by show PyNum.div (1 : ℝ) v = _; rw [div_of_ne hvpos.ne'])
    (by
      rw [I.terrain]
      show PyNum.div (3.0 * v) (1 : ℝ) = _
      rw [div_of_ne one_ne_zero]; norm_num)
    hstop
  have hacc : AcceptedStep exactG w w' := ⟨I.unfinished, h1, h2⟩
  have heff : w'.effusionRate = exactE := by
    obtain ⟨A⟩ := acceptedFacts hacc
    rw [A.eff_eq]
    have : A.v = v := by
      have := A.hv
      rw [I.terrain] at this
      have h6 : exactG.models.lava.meanVelocity exactTerrain w.st = .ok (v, 3 * v / 1) := hv
      rw [h6, Except.ok.injEq, Prod.mk.injEq] at this
      exact this.1.symm
    rw [this, hE]
  refine ⟨w', hacc, ?_⟩
  exact
    { terrain := by rw [h4, I.terrain]
      iter := by rw [h2, I.iter]
      unfinished := by rw [h3, I.unfinished]; rfl
      rate := fun _ => heff
      pos := by rw [h5]; show w.st.pos + 1 = _; rw [I.pos]; push_cast; ring
      phi0 := by rw [h5]; show 0 ≤ w.st.crystal + -c * -1 * 1; rw [e1]; linarith
      phi1 := by rw [h5]; show w.st.crystal + -c * -1 * 1 ≤ _; rw [e1, hcast]; linarith
      temp0 := by rw [h5]; show _ ≤ w.st.temp + -c * 1; rw [e2, hcast]; linarith [I.temp0]
      temp1 := by rw [h5]; show w.st.temp + -c * 1 ≤ _; rw [e2]; linarith [I.temp1]
      start := fun h => absurd h (by omega) }

theorem exact_run (k : Nat) (hk : k ≤ 1000) : ∃ vs, vs 0 = exactWorld ∧ AcceptedRun exactG k vs ∧ ∀ i, i ≤ k → ExactInv i (vs i) := by
  induction k with
  | zero =>
    refine ⟨fun _ => exactWorld, rfl, fun i hi => by omega, fun i hi => ?_⟩
    rw [Nat.le_zero.mp hi]
    exact exactInv_zero
  | succ k ih =>
    obtain ⟨vs, h0, h1, h2⟩ := ih (by omega)
    obtain ⟨w', a, b⟩ := exact_step k (by omega) (vs k) (h2 k le_rfl)
    refine ⟨fun i => if i ≤ k then vs i else w', by simp [h0], fun i hi => ?_, fun i hi => ?_⟩
    · by_cases e : i = k
      · subst e; simpa using a
      · have := h1 i (by omega)
        simp only [show i ≤ k by omega, show i + 1 ≤ k by omega, if_true]
        exact this
    · by_cases e : i = k + 1
      · subst e; simpa using b
      · simp only [show i ≤ k by omega, if_true]; exact h2 i (by omega)

/-- The flow equations of the exact flow. -/
theorem exact_equations (s : FlowState ℝ) (hT : 0 < s.temp) (G : Slopes) :
    FlowEquations exactG exactTerrain none exactE s G ↔
      G = ⟨-(1 / 2 ^ 20 * (1 / exactV s.temp)), 1 / 2 ^ 20 * (1 / exactV s.temp), 1 / exactV s.temp⟩ := by
  have hv := exact_velocity s hT
  have hpos : 0 < exactV s.temp := lt_of_lt_of_le (by norm_num) (exactV_bounds hT.le).1
  have hEp := exactE_pos
  have hrho : exactG.models.lava.density s = 1 := exact_density s
  have hlat : exactG.models.lava.latentHeat = 2 ^ 20 := rfl
  have hrate : exactG.models.cryst.rate s = .ok 1 := by
    show Except.ok (if _ then _ else _) = _; split <;> rfl
  constructor
  · rintro ⟨d, hd, ⟨qs, hq, hsum⟩, g1, g2, g3⟩
    obtain ⟨x, hx⟩ := hd.velocity
    have hx : exactLava.meanVelocity exactTerrain s = .ok (d.v, x) := hx
    rw [hv, Except.ok.injEq, Prod.mk.injEq] at hx
    have hw := hd.volume rfl
    have hdep : exactTerrain.depth = 1 := rfl
    rw [← hx.1, hdep, mul_one] at hw
    have hr := hd.rate
    rw [hrate, Except.ok.injEq] at hr
    have hfl : exactG.models.fluxes = [.rain 1 1 1] := rfl
    rw [hfl] at hq
    cases hq with
    | cons ha hb =>
      cases hb
      have ha : _ = 1 * 1 * 1 * d.width := ha
      rw [hw] at ha
      unfold tempGradient at g1
      unfold crystalGradient at g2
      rw [hrho, hlat] at g1 g2
      rw [hsum, ← hr, ha] at g1
      rw [hsum, ha] at g2
      rw [← hx.1] at g3
      cases G
      simp only [Slopes.mk.injEq]
      dsimp only at g1 g2 g3
      refine ⟨?_, ?_, g3⟩
      · rw [g1]; simp; field_simp
      · rw [g2]; simp; field_simp
  · rintro rfl
    refine ⟨⟨exactV s.temp, 0, exactV s.temp, 1 * 1 * 1 * (exactE / exactV s.temp), exactE / exactV s.temp,
        1 / 4, 1, 500, exactY s.temp, Real.sin (1 / 4), 1⟩,
      ⟨⟨_, hv⟩, hpos, one_ne_zero, ⟨_, exact_velocity { s with strain := 0 } hT⟩, fun _ => ?_, fun hm => ?_,
        rfl, exact_bulk { s with strain := 0 } hT.ne', rfl, exact_yield s, exact_basal s, hrate, ?_⟩,
      ⟨[1 * 1 * 1 * (exactE / exactV s.temp)], List.Forall₂.cons rfl List.Forall₂.nil, by simp⟩, ?_, ?_, rfl⟩
    · show exactE / exactV s.temp = exactE / (exactV s.temp * 1); rw [mul_one]
    · cases hm
    · rw [hrho, hlat]; positivity
    · unfold tempGradient; rw [hrho, hlat]; simp; field_simp
    · unfold crystalGradient; rw [hrho, hlat]; simp; field_simp

theorem exact_lipschitz : LipschitzRhs exactG exactTerrain none exactE (fun _ T _ => 0 < T) (1 / 2 ^ 90) := by
  intro s s' G G' hs hs' _ hG hG'
  rw [(exact_equations s hs G).mp hG, (exact_equations s' hs' G').mp hG']
  have h := exactInv_lipschitz hs.le hs'.le
  have hm : 1 / 2 ^ 90 * |s.temp - s'.temp| ≤ 1 / 2 ^ 90 * max |s.temp - s'.temp| |s.crystal - s'.crystal| :=
    mul_le_mul_of_nonneg_left (le_max_left _ _) (by positivity)
  have h' := h.trans hm
  generalize 1 / 2 ^ 90 * max |s.temp - s'.temp| |s.crystal - s'.crystal| = r at h'
  have h0 := (abs_nonneg _).trans h'
  have h20 : 1 / 2 ^ 20 * |1 / exactV s.temp - 1 / exactV s'.temp| ≤ r := by
    have : (1 : ℝ) / 2 ^ 20 * |1 / exactV s.temp - 1 / exactV s'.temp| ≤ 1 * |1 / exactV s.temp - 1 / exactV s'.temp| :=
      mul_le_mul_of_nonneg_right (by norm_num) (abs_nonneg _)
    linarith
  have h20' : |1 / 2 ^ 20 * (1 / exactV s.temp) - 1 / 2 ^ 20 * (1 / exactV s'.temp)| ≤ r := by
    rw [← mul_sub, abs_mul, abs_of_pos (by positivity : (0 : ℝ) < 1 / 2 ^ 20)]
    exact h20
  refine ⟨?_, h20', h'⟩
  show |-(1 / 2 ^ 20 * (1 / exactV s.temp)) - -(1 / 2 ^ 20 * (1 / exactV s'.temp))| ≤ r
  rw [neg_sub_neg, abs_sub_comm]
  exact h20'

end PyFlowGo
