import Verif.Proofs.RoundExactRun
import Verif.Proofs.RoundClose
/-
  C131 on a flow of a thousand steps.
-/
set_option linter.unusedSectionVars false
namespace PyFlowGo
open Spec Rounded

/-- The cooling per metre of the flow of `RoundFlow` in rounded arithmetic. -/
theorem rf_gradients {rd : ℝ → ℝ} (D : Decent rd) (i : Nat) (hi : i < 1000) (w w' : World (Rounded rd)) (I : RfInv rd i w)
    (h : AcceptedStep (rfG rd (rfYield rd) false) w w') :
    loggedNum w'.log w.st.pos "dtemp_dx" = some (exactly (-rfC rd)) ∧ loggedNum w'.log w.st.pos "dphi_dx" = some (exactly (rfC rd)) := by
  have hi' : (i : ℝ) ≤ 999 := by exact_mod_cast (by omega : i ≤ 999)
  have hv := rf_v D
  have hden := rf_den D
  have hvpos : 0 < rfV rd := lt_of_lt_of_le (by norm_num) hv.1
  have hvrep : rd (rfV rd) = rfV rd := D.rounding.idem _
  have hcrep : rd (rfC rd) = rfC rd := D.rounding.idem _
  have hdenrep : rd (rd (rfV rd * 2 ^ 20)) = rd (rfV rd * 2 ^ 20) := D.rounding.idem _
  have h999 : (999 : ℝ) ≤ val w.st.temp := by
    have := I.temp0
    have : (i : ℝ) / 2 ^ 15 ≤ 1 := by rw [div_le_one (by norm_num)]; norm_num; linarith
    linarith
  have hTne : rd (val w.st.temp) ≠ 0 := by
    have h2 := D.rounding.mono h999
    have h3 : rd 999 = 999 := by have := D.int 999; simpa using this
    rw [h3] at h2
    intro h; rw [h] at h2; norm_num at h2
  have hE : w.stepEffusion (exactly (rfV rd)) = exactly (rfV rd) := by
    unfold World.stepEffusion
    rw [I.iter]
    by_cases h : i = 0
    · rw [if_pos (by simpa using h), I.terrain]
      apply eq_exactly
      show rd (rd (rfV rd * 1) * 1) = _
      simp [hvrep]
    · rw [if_neg (by simpa using h), I.rate h]
  obtain ⟨A⟩ := roundStep h
  obtain ⟨ta, ha, ha0, ha1⟩ := rf_yield D w.st (by linarith)
  have hlava : (rfG rd (rfYield rd) false).models.lava = rfLava rd (rfYield rd) := rfl
  have hAv : A.v = exactly (rfV rd) := by
    have h := A.hv
    rw [I.terrain] at h
    have h2 := rf_velocity D (rfYield rd) w.st hTne ta ha ha0 ha1
    rw [hlava, h2, Except.ok.injEq, Prod.mk.injEq] at h
    exact h.1.symm
  have hw : A.d.width = exactly 1 := by
    have h := A.facts.width
    have hdv : PyNum.div (exactly (rfV rd) : Rounded rd) (exactly (rfV rd) * (rfTerrain rd).depth) = .ok (exactly 1) := by
      have e : val ((exactly (rfV rd) : Rounded rd) * (rfTerrain rd).depth) = rfV rd := by
        show rd (rfV rd * 1) = _
        rw [mul_one, hvrep]
      refine div_eq (by rw [e]; exact hvpos.ne') ?_
      rw [e, val_exactly, div_self hvpos.ne', D.one]
    rw [hAv, hE, I.terrain] at h
    have h : PyNum.div (exactly (rfV rd) : Rounded rd) (exactly (rfV rd) * (rfTerrain rd).depth) = .ok A.d.width := h
    rw [hdv, Except.ok.injEq] at h
    exact h.symm
  have hq : A.d.heat = exactly 1 := by
    have h := A.facts.heat
    obtain ⟨w1, hb⟩ := rain_budget_gen (rfModels rd (rfYield rd)) (exactly 1) (exactly 1) (exactly 1) A.d.width w.terrain.depth
      { w with st := { w.st with strain := A.x }, effusionRate := w.stepEffusion A.v } rfl
    have h : heatBudget (rfModels rd (rfYield rd)) A.d.width w.terrain.depth
      { w with st := { w.st with strain := A.x }, effusionRate := w.stepEffusion A.v } = _ := h
    rw [hb, Prod.mk.injEq, Except.ok.injEq] at h
    rw [← h.1, hw]
    apply eq_exactly
    show rd (val (0.0 : Rounded rd) + rd (rd (rd (1 * 1) * 1) * 1)) = 1
    rw [rf_lit_zero D]; simp [D.one]
  have hr : A.d.rate = exactly 1 := by
    have h := A.facts.rate
    have h : Except.ok (if leB w.st.pos (exactly 0) then (exactly 1 : Rounded rd) else exactly 1) = Except.ok A.d.rate := h
    rw [Except.ok.injEq] at h
    rw [← h]; split <;> rfl
  have hdt : A.d.dtempDx = exactly (-rfC rd) := by
    have h := A.facts.dtemp
    rw [hq, hr, hAv, hE, hlava, rf_density D] at h
    have e : val ((exactly (rfV rd) : Rounded rd) * exactly 1 * (rfLava rd (rfYield rd)).latentHeat * exactly 1) = rd (rfV rd * 2 ^ 20) := by
      show rd (rd (rd (rfV rd * 1) * 2 ^ 20) * 1) = _
      rw [mul_one, mul_one, hvrep, hdenrep]
    obtain ⟨_, h⟩ := Rounded.div_ok.mp h
    rw [e, val_neg, val_exactly, neg_div, D.rounding.neg] at h
    exact eq_exactly h
  have hdp : A.d.dphiDx = exactly (rfC rd) := by
    rw [A.facts.dphi, hdt, hr]
    apply eq_exactly
    show rd (-rfC rd * -1) = _
    rw [neg_mul_neg, mul_one, hcrep]
  constructor
  · rw [← hdt]; exact A.logged (by decide) rfl
  · rw [← hdp]; exact A.logged (by decide) rfl

/-- The cooling per metre in 53-bit arithmetic and in exact arithmetic. -/
theorem rf_exact_close {T : ℝ} (hT : 0 < T) : |rfC (unbounded 53) - 1 / 2 ^ 20 * (1 / exactV T)| ≤ 1 / 2 ^ 60 := by
  have hA : Accurate (1 / 2 ^ 53) 0 (unbounded 53) := by
    intro x
    have := unbounded_accurate 53 x
    rw [show (1 / 2 ^ 53 : ℝ) = (2 : ℝ) ^ (-((53 : ℕ) : ℤ)) by norm_num]
    exact this
  have hc : Close (1 / 2 ^ 53) 4 (1 / (Real.sin (1 / 4) / 3 * 2 ^ 20)) (rfC (unbounded 53)) := by
    have h1 := Close.round (u := 1 / 2 ^ 53) (by norm_num) (by norm_num) hA (Real.sin (1 / 4))
    have h2 := Close.then_round (u := 1 / 2 ^ 53) (by norm_num) (by norm_num) hA (Close.div (by norm_num) (by norm_num) h1 (Close.refl 3))
    have h3 := Close.then_round (u := 1 / 2 ^ 53) (by norm_num) (by norm_num) hA (Close.mul (by norm_num) (by norm_num) h2 (Close.refl (2 ^ 20)))
    exact Close.then_round (u := 1 / 2 ^ 53) (by norm_num) (by norm_num) hA (Close.div (by norm_num) (by norm_num) (Close.refl 1) h3)
  have he := Close.error (by norm_num) (by norm_num) hc
  obtain ⟨t0, t1⟩ := exact_tau
  obtain ⟨f0, f1⟩ := exactV_near hT.le
  have e : 1 / 2 ^ 20 * (1 / exactV T) = 1 / (Real.sin (1 / 4) / 3 * 2 ^ 20) *
      (1 / (1 - 3 / 2 * (exactY T / Real.sin (1 / 4)) + 1 / 2 * (exactY T / Real.sin (1 / 4)) ^ 3)) := by
    rw [exactV_eq]
    generalize 1 - 3 / 2 * (exactY T / Real.sin (1 / 4)) + 1 / 2 * (exactY T / Real.sin (1 / 4)) ^ 3 = F
    rw [one_div_mul_one_div, one_div_mul_one_div]
    congr 1
    ring
  rw [e]
  generalize 1 - 3 / 2 * (exactY T / Real.sin (1 / 4)) + 1 / 2 * (exactY T / Real.sin (1 / 4)) ^ 3 = F at f0 f1
  have hFpos : 0 < F := lt_of_lt_of_le (by norm_num) f0
  have hX0 : 0 < 1 / (Real.sin (1 / 4) / 3 * 2 ^ 20) := by
    have : 0 < Real.sin (1 / 4) := by linarith
    positivity
  have hX1 : 1 / (Real.sin (1 / 4) / 3 * 2 ^ 20) ≤ 1 / 2 ^ 15 := by
    refine one_div_le_one_div_of_le (by norm_num) ?_
    norm_num
    linarith
  generalize 1 / (Real.sin (1 / 4) / 3 * 2 ^ 20) = X at he hX0 hX1
  rw [abs_of_pos hX0] at he
  have hF1 : 1 / F - 1 ≤ 1 / 2 ^ 80 := by
    rw [sub_le_iff_le_add, div_le_iff₀ hFpos]
    have h : (1 : ℝ) ≤ (1 / 2 ^ 80 + 1) * (1 - 1 / 2 ^ 96) := by norm_num
    exact h.trans (mul_le_mul_of_nonneg_left f0 (by positivity))
  have hF0 : 0 ≤ 1 / F - 1 := by rw [sub_nonneg, le_div_iff₀ hFpos]; linarith
  have h1 : |X - X * (1 / F)| ≤ 1 / 2 ^ 61 := by
    rw [show X - X * (1 / F) = -(X * (1 / F - 1)) by ring, abs_neg, abs_of_nonneg (by positivity)]
    calc X * (1 / F - 1) ≤ 1 / 2 ^ 15 * (1 / 2 ^ 80) := mul_le_mul hX1 hF1 hF0 (by positivity)
      _ ≤ _ := by norm_num
  have h2 : |rfC (unbounded 53) - X| ≤ 1 / 2 ^ 61 := by
    refine he.trans ?_
    have h : (1 / (1 - 1 / 2 ^ 53) ^ 4 - 1 : ℝ) ≤ 1 / 2 ^ 50 := by norm_num
    calc _ ≤ 1 / 2 ^ 50 * X := mul_le_mul_of_nonneg_right h hX0.le
      _ ≤ 1 / 2 ^ 50 * (1 / 2 ^ 15) := mul_le_mul_of_nonneg_left hX1 (by positivity)
      _ ≤ _ := by norm_num
  calc _ ≤ |rfC (unbounded 53) - X| + |X - X * (1 / F)| := abs_sub_le _ _ _
    _ ≤ 1 / 2 ^ 61 + 1 / 2 ^ 61 := add_le_add h2 h1
    _ = _ := by norm_num

theorem exact_grow {K D : ℝ} {i : ℕ} (hK : 0 < K) (hD : 0 ≤ D) (h : K * (i * 1) ≤ 1) :
    0 * Real.exp (K * (i * 1)) + D / K * (Real.exp (K * (i * 1)) - 1) ≤ 2 * D * i := by
  have h0 : 0 ≤ K * ((i : ℝ) * 1) := by positivity
  have h1 : Real.exp (K * (i * 1)) - 1 ≤ 2 * (K * (i * 1)) := by
    have := Real.abs_exp_sub_one_le (x := K * (i * 1)) (by rw [abs_of_nonneg h0]; exact h)
    rw [abs_of_nonneg h0] at this
    exact (le_abs_self _).trans this
  calc _ = D / K * (Real.exp (K * (i * 1)) - 1) := by ring
    _ ≤ D / K * (2 * (K * (i * 1))) := mul_le_mul_of_nonneg_left h1 (by positivity)
    _ = 2 * D * i := by field_simp

/-- Non-vacuity of C131, and what it says of double precision: a flow of a thousand metres computed with 53 significant bits.  Every core
    temperature and crystal fraction of its table agrees with the table of the exact run to nine decimals. -/
theorem C131_thousand_steps : ∃ (ws : Nat → World (Rounded (unbounded 53))) (vs : Nat → World ℝ),
    ws 0 = rfWorld (unbounded 53) 0 ∧ vs 0 = exactWorld ∧
    AcceptedRun (rfG (unbounded 53) (rfYield (unbounded 53)) false) 1000 ws ∧ AcceptedRun exactG 1000 vs ∧
    (∀ i : ℕ, i ≤ 1000 → val (ws i).st.pos = i ∧ (vs i).st.pos = i) ∧
    ∀ i, i < 1000 → ∀ c, c = "core_temperature" ∨ c = "crystal_fraction" →
      ∃ y y', loggedNum (ws 1000).log (ws i).st.pos c = some y ∧ loggedNum (vs 1000).log (vs i).st.pos c = some y' ∧
        |val y - y'| ≤ 1 / 10 ^ 9 := by
  have D := unbounded_decent
  obtain ⟨ws, w0, w1, w2, _⟩ := rf_run D false 0 (by norm_num) 1000 le_rfl
  obtain ⟨vs, v0, v1, v2⟩ := exact_run 1000 le_rfl
  have hA : Accurate (1 / 2 ^ 53) 0 (unbounded 53) := by
    intro x
    have := unbounded_accurate 53 x
    rw [show (1 / 2 ^ 53 : ℝ) = (2 : ℝ) ^ (-((53 : ℕ) : ℤ)) by norm_num]
    exact this
  have hTw : ∀ i, i < 1000 → (0 : ℝ) < val (ws i).st.temp := by
    intro i hi
    have h := (w2 i hi.le).temp0
    have : (i : ℝ) / 2 ^ 15 ≤ 1 := by
      rw [div_le_one (by norm_num)]
      have : (i : ℝ) ≤ 1000 := by exact_mod_cast hi.le
      norm_num; linarith
    linarith
  have hTv : ∀ i, i < 1000 → (0 : ℝ) < (vs i).st.temp := by
    intro i hi
    have h := (v2 i hi.le).temp0
    have : (i : ℝ) / 2 ^ 15 ≤ 1 := by
      rw [div_le_one (by norm_num)]
      have : (i : ℝ) ≤ 1000 := by exact_mod_cast hi.le
      norm_num; linarith
    linarith
  have hV : VentRate exactG (vs 0) exactE := by
    intro v x hv
    rw [v0] at hv ⊢
    have h2 := exact_velocity exactWorld.st (by show (0 : ℝ) < 1000; norm_num)
    have hv : exactLava.meanVelocity exactTerrain exactWorld.st = .ok (v, x) := hv
    rw [h2, Except.ok.injEq, Prod.mk.injEq] at hv
    rw [← hv.1]
    show exactV 1000 = if (0 : ℕ) = 0 then exactV 1000 * 1 * 1 else _
    rw [if_pos rfl]; ring
  have hc := rf_c D
  have hc1 : rfC (unbounded 53) ≤ 1 := hc.2.trans (by norm_num)
  have hc0 : 0 ≤ rfC (unbounded 53) := le_trans (by norm_num) hc.1
  have hpos0 : (vs 0).st.pos = 0 := by rw [v0]; rfl
  obtain ⟨p, q, _, _⟩ := C131_rounding_error (u := 1 / 2 ^ 53) (η := 0) (by norm_num) (by norm_num) le_rfl hA
    (rfG (unbounded 53) (rfYield (unbounded 53)) false) exactG (show (0 : ℝ) < 1 by norm_num) rfl 1000 ws vs w1 v1
    (fun _ _ => rfl) (by rw [w0, v0]; rfl)
    (fun i hi => by
      show unbounded 53 ((vs 0).st.pos + i * 1) = (vs 0).st.pos + i * 1
      rw [hpos0, zero_add, mul_one]
      have := D.int (i : ℤ) (by rw [abs_of_nonneg (by omega)]; omega)
      simpa using this)
    exactE hV (fun _ T _ => 0 < T) hTw hTv (1 / 2 ^ 90) (1 / 2 ^ 60) 1000 0 (by positivity) (by positivity)
    (by rw [v0]; exact exact_lipschitz)
    (fun i hi => by
      obtain ⟨a, b⟩ := rf_gradients D i hi _ _ (w2 i hi.le) (w1 i hi)
      have hcl := rf_exact_close (hTw i hi)
      have he := (exact_equations (exactState (ws i).st) (hTw i hi) _).mpr rfl
      rw [v0]
      refine ⟨_, _, _, a, b, he, ?_, hcl⟩
      show |-rfC (unbounded 53) - -(1 / 2 ^ 20 * (1 / exactV (val (ws i).st.temp)))| ≤ _
      rw [neg_sub_neg, abs_sub_comm]
      exact hcl)
    (fun i hi => by
      obtain ⟨a, b⟩ := rf_gradients D i hi _ _ (w2 i hi.le) (w1 i hi)
      have I := w2 i hi.le
      refine ⟨?_, ?_, fun x hx => ?_, fun x hx => ?_⟩
      · rw [abs_of_pos (hTw i hi)]; exact I.temp1
      · rw [abs_of_nonneg I.phi0]
        refine I.phi1.trans ?_
        have : (i : ℝ) ≤ 1000 := by exact_mod_cast hi.le
        rw [div_le_iff₀ (by norm_num)]; norm_num; linarith
      · rw [a, Option.some.injEq] at hx
        rw [← hx]
        show |-rfC (unbounded 53) * 1| ≤ 1000
        rw [mul_one, abs_neg, abs_of_nonneg hc0]; linarith
      · rw [b, Option.some.injEq] at hx
        rw [← hx]
        show |rfC (unbounded 53) * 1| ≤ 1000
        rw [mul_one, abs_of_nonneg hc0]; linarith)
    (by rw [w0, v0]; show |(1000 : ℝ) - 1000| ≤ 0; simp) (by rw [w0, v0]; show |(0 : ℝ) - 0| ≤ 0; simp)
  refine ⟨ws, vs, w0, v0, w1, v1, fun i hi => ?_, fun i hi c hcc => ?_⟩
  · obtain ⟨a, b⟩ := p i hi
    have e : (vs 0).st.pos + i * exactG.dx = i := by
      rw [hpos0]; show (0 : ℝ) + i * 1 = i; ring
    rw [e] at a b
    exact ⟨a, b⟩
  · obtain ⟨y, y', a, b, h⟩ := q i hi c hcc
    refine ⟨y, y', a, b, h.trans ?_⟩
    have hi' : (i : ℝ) ≤ 1000 := by exact_mod_cast hi.le
    have hg := exact_grow (K := 1 / 2 ^ 90) (D := 1 / 2 ^ 60 + (4 * (1 / 2 ^ 53) * 1000 + 3 * 0) / 1) (i := i) (by positivity) (by positivity) (by
      rw [mul_one, one_div_mul_eq_div, div_le_one (by positivity)]
      exact hi'.trans (by norm_num))
    refine (show _ ≤ _ from hg).trans ?_
    have h2 : 2 * (1 / 2 ^ 60 + (4 * (1 / 2 ^ 53) * 1000 + 3 * 0) / 1) * (i : ℝ) ≤
        2 * (1 / 2 ^ 60 + (4 * (1 / 2 ^ 53) * 1000 + 3 * 0) / 1) * 1000 := mul_le_mul_of_nonneg_left hi' (by positivity)
    refine h2.trans ?_
    norm_num

end PyFlowGo
