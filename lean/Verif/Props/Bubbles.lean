import Verif.Props.Compat
import Mathlib.Analysis.SpecialFunctions.Gaussian.GaussianIntegral
/-
  C31: bubbles.  C32: the BLL law.  C33: positivity of the bulk viscosity.
-/
namespace PyFlowGo
open Spec

theorem five_thirds : (PyNum.div (5.0 : ℝ) 3.0 : Except Err ℝ) = .ok (5 / 3) := by
  rw [div_of_ne (by norm_num)]; norm_num

theorem ite_error_ok {β : Type} {c : Prop} [Decidable c] {e : Err} {x y : β}
    (h : (if c then Except.error e else Except.ok x) = (Except.ok y : Except Err β)) : y = x := by
  by_cases hc : c
  · rw [if_pos hc] at h; cases h
  · rw [if_neg hc] at h; injection h with h; exact h.symm

theorem ite_error_ne {β : Type} {c : Prop} [Decidable c] {e e' : Err} {x : β} (hne : e ≠ e')
    (h : (if c then Except.error e else Except.ok x) = (Except.error e' : Except Err β)) : False := by
  by_cases hc : c
  · rw [if_pos hc] at h; injection h with h; exact hne h
  · rw [if_neg hc] at h; cases h

/-- **C31**, the laws for a vesicle fraction below one. -/
theorem C31_bubble_laws (ves : VesicleModel ℝ) (s : FlowState ℝ) (hv : ves.fraction s < 1) :
    (BubModel.no : BubModel ℝ).relative s = .ok 1 ∧
    (BubModel.rigid ves).relative s = .ok (bubblesRigid (ves.fraction s)) ∧
    (BubModel.defo ves).relative s = .ok (bubblesDeformable (ves.fraction s)) := by
  have hp : (0:ℝ) < 1 - ves.fraction s := by linarith
  refine ⟨by unfold BubModel.relative; dsimp only; rw [one_lit], ?_, ?_⟩
  · unfold BubModel.relative bubblesRigid; dsimp only
    rw [one_lit, mpow_of_pos _ hp, Real.rpow_neg hp.le, Real.rpow_one]
  · unfold BubModel.relative bubblesDeformable; dsimp only
    rw [five_thirds, ok_bind, one_lit, mpow_of_pos _ hp]

/-- **C31**, direction of the effect for vesicle fractions in [0,1): rigid bubbles thicken (>= 1, increasing),
    deformable bubbles thin (in (0,1], decreasing). -/
theorem C31_direction (v v' : ℝ) (h0 : 0 ≤ v) (hlt : v < v') (h1 : v' < 1) :
    1 ≤ bubblesRigid v ∧ bubblesRigid v < bubblesRigid v' ∧
    0 < bubblesDeformable v' ∧ bubblesDeformable v' < bubblesDeformable v ∧ bubblesDeformable v ≤ 1 := by
  have hp : 0 < 1 - v' := by linarith
  refine ⟨?_, ?_, ?_, ?_, ?_⟩
  · exact (one_le_inv₀ (by linarith)).mpr (by linarith)
  · exact inv_strictAnti₀ hp (by linarith)
  · exact Real.rpow_pos_of_pos hp _
  · exact Real.rpow_lt_rpow hp.le (by linarith) (by norm_num)
  · exact Real.rpow_le_one (by linarith) (by linarith) (by norm_num)

/-- **C31**, the mader switch: for a vesicle fraction below one and computable melt and crystal factors, the mader
    model is the rigid one when the capillary number is below 1 and the deformable one otherwise. -/
theorem C31_mader_switch (radius tension : ℝ) (ves : VesicleModel ℝ) (melt : MeltModel ℝ) (rel : RelModel ℝ)
    (s : FlowState ℝ) (eta rc : ℝ) (hv : ves.fraction s < 1) (ht : tension ≠ 0)
    (hm : melt.viscosity s = .ok eta) (hr : rel.relative s = .ok rc) :
    (capillary radius tension eta rc s.strain < 1 →
      (BubModel.mader radius tension ves melt rel).relative s = (BubModel.rigid ves).relative s) ∧
    (1 ≤ capillary radius tension eta rc s.strain →
      (BubModel.mader radius tension ves melt rel).relative s = (BubModel.defo ves).relative s) := by
  have hp : (0:ℝ) < 1 - ves.fraction s := by linarith
  obtain ⟨_, e2, e3⟩ := C31_bubble_laws ves s hv
  rw [e2, e3]
  unfold BubModel.relative; dsimp only
  rw [hm, ok_bind, hr, ok_bind, div_of_ne ht, ok_bind]
  constructor
  · intro h
    rw [if_pos (by rw [ltB_real, one_lit]; exact h), one_lit, pow_of_pos _ hp, Real.rpow_neg hp.le, Real.rpow_one]
    rfl
  · intro h
    rw [if_neg (by rw [ltB_real, one_lit, not_lt]; exact h), five_thirds, ok_bind, one_lit, pow_of_pos _ hp]
    rfl

/-- **C31**, the limits: at vesicle fraction 1 the rigid law fails, and above 1 the deformable law fails. -/
theorem C31_limits (ves : VesicleModel ℝ) (s : FlowState ℝ) :
    (ves.fraction s = 1 → (BubModel.rigid ves).relative s = .error .mathDomain) ∧
    (1 < ves.fraction s → (BubModel.defo ves).relative s = .error .mathDomain) := by
  constructor
  · intro h
    unfold BubModel.relative; dsimp only
    rw [h, one_lit, sub_self, mpow_real, realPow_zero_neg (by norm_num)]
  · intro h
    unfold BubModel.relative; dsimp only
    rw [five_thirds, ok_bind, mpow_real]
    unfold realPow
    have hneg : (1.0 - ves.fraction s : ℝ) < 0 := by rw [one_lit]; linarith
    have hni : ¬ IsInt (5 / 3) := by
      rintro ⟨n, hn⟩
      have h2 : ((3 * n : ℤ) : ℝ) = ((5 : ℤ) : ℝ) := by push_cast; rw [hn]; norm_num
      have : 3 * n = 5 := by exact_mod_cast h2
      omega
    rw [if_neg (fun hh => absurd hh.1 hneg.ne), if_pos ⟨hneg, hni⟩]

/-! ### C32 -/

theorem bllIndex_bounds (pc φ v ca : ℝ) : 0.2 ≤ bllIndex pc φ v ca ∧ bllIndex pc φ v ca ≤ 1.2 := by
  unfold bllIndex
  simp only [pyMin_real, pyMax_real]
  exact ⟨le_min (by norm_num) (le_max_left _ _), min_le_left _ _⟩

/-- **C32**, the law. A computed BLL viscosity is the Newtonian factor times strain^(n-1), with a flow index n in
    [0.2, 1.2] that is 1 when crystals and bubbles together stay below the critical fraction; the strain rate used
    is the stored one, or 1e-12 when that is not positive. The vesicle fraction is below 1. -/
theorem C32_bll_law (pm bs bg r t pc : ℝ) (ves : VesicleModel ℝ) (melt : MeltModel ℝ) (s : FlowState ℝ) (rv : ℝ)
    (h : (RelModel.bll pm bs bg r t pc ves melt).relative s = .ok rv) :
    ves.fraction s < 1 ∧ ∃ n strain : ℝ, 0.2 ≤ n ∧ n ≤ 1.2 ∧
      (s.crystal * (1 - ves.fraction s) + ves.fraction s ≤ pc → n = 1) ∧
      (strain = if s.strain ≤ 0 then 1e-12 else s.strain) ∧
      rv = bllNewtonian pm bs bg s.crystal (ves.fraction s) * strain ^ (n - 1) := by
  unfold RelModel.relative bllRelative at h; dsimp only at h
  obtain ⟨eta, hm, h⟩ := bind_ok_iff.mp h
  obtain ⟨relax, hrl, h⟩ := bind_ok_iff.mp h
  by_cases hv : (1:ℝ) ≤ ves.fraction s
  · rw [if_pos (by rw [leB_real, one_lit]; exact hv)] at h; cases h
  rw [if_neg (by rw [leB_real, one_lit]; exact hv)] at h
  refine ⟨not_le.mp hv, ?_⟩
  have hst : (if leB s.strain 0.0 = true then (1e-12 : ℝ) else s.strain) =
      if s.strain ≤ 0 then 1e-12 else s.strain := by
    simp only [leB_real]; norm_num
  rw [hst] at h
  have fin : ∀ x : ℝ, (if leB (if s.strain ≤ 0 then 1e-12 else s.strain) 0.0 = true
      then Except.error Err.valueError else Except.ok x) = (Except.ok rv : Except Err ℝ) → rv = x := by
    intro x hx
    exact ite_error_ok hx
  by_cases hc : pc < s.crystal * (1 - ves.fraction s) + ves.fraction s
  · rw [if_pos (by rw [ltB_real, one_lit]; exact hc)] at h
    obtain ⟨q, hq, hx⟩ := bind_ok_iff.mp h
    obtain ⟨a, ha, hx⟩ := bind_ok_iff.mp hx
    obtain ⟨b, hb, hx⟩ := bind_ok_iff.mp hx
    obtain ⟨c, hc', hx⟩ := bind_ok_iff.mp hx
    obtain ⟨hb1, hb2⟩ := bllIndex_bounds pc s.crystal (ves.fraction s) (relax * s.strain)
    refine ⟨_, _, hb1, hb2, fun h => absurd h (not_le.mpr hc), rfl, ?_⟩
    rw [pure_eq_ok, ok_bind] at hx
    rw [fin _ hx, pow_ok ha, pow_ok hb, pow_ok hc', (div_ok_iff.mp hq).2, one_lit]
    rfl
  · rw [if_neg (by rw [ltB_real, one_lit]; exact hc)] at h
    obtain ⟨q, hq, hx⟩ := bind_ok_iff.mp h
    obtain ⟨a, ha, hx⟩ := bind_ok_iff.mp hx
    obtain ⟨b, hb, hx⟩ := bind_ok_iff.mp hx
    refine ⟨1, _, by norm_num, by norm_num, fun _ => rfl, rfl, ?_⟩
    rw [pure_eq_ok, ok_bind] at hx
    rw [fin _ hx, pow_ok ha, pow_ok hb, (div_ok_iff.mp hq).2, one_lit, sub_self, Real.rpow_zero, mul_one]
    rfl

/-- **C32**, the index. When crystals and bubbles together exceed the critical fraction, the flow index is
    1 + (0.7 - 0.55*min(Ca,10))*(phicrit - phi*(1-v) - v) clamped to [0.2, 1.2]. -/
theorem C32_bll_index (pc φ v ca : ℝ) :
    bllIndex pc φ v ca = min 1.2 (max 0.2 (1 + (0.7 - 0.55 * min ca 10) * (pc - φ * (1 - v) - v))) := by
  unfold bllIndex
  simp only [pyMin_real, pyMax_real, ltB_real]
  have e : (if (10.0 : ℝ) < ca then (10.0 : ℝ) else ca) = min ca 10 := by
    split
    · rename_i h; rw [min_eq_right]; · norm_num
      · norm_num at h; exact h.le
    · rename_i h; rw [min_eq_left]; norm_num at h; exact h
  rw [e, one_lit]

/-- **C32**. With a computable melt viscosity and non-zero surface tension the result is infinite iff the vesicle
    fraction is at least 1. -/
theorem C32_bll_infinite_iff (pm bs bg r t pc : ℝ) (ves : VesicleModel ℝ) (melt : MeltModel ℝ) (s : FlowState ℝ)
    (eta : ℝ) (hm : melt.viscosity s = .ok eta) (ht : t ≠ 0) :
    (RelModel.bll pm bs bg r t pc ves melt).relative s = .error .infinite ↔ 1 ≤ ves.fraction s := by
  unfold RelModel.relative bllRelative; dsimp only
  rw [hm, ok_bind, div_of_ne ht, ok_bind]
  by_cases hv : (1:ℝ) ≤ ves.fraction s
  · rw [if_pos (by rw [leB_real, one_lit]; exact hv)]; simp [hv]
  rw [if_neg (by rw [leB_real, one_lit]; exact hv)]
  simp only [hv, iff_false]
  have hp : ∀ x y : ℝ, PyNum.pow x y ≠ .error .infinite := by
    intro x y
    rw [pow_real]; unfold realPow
    split
    · simp
    · split <;> simp
  have hd : ∀ x y : ℝ, PyNum.div x y ≠ .error .infinite := by
    intro x y h; have := (div_error_iff.mp h).2; cases this
  have fin : ∀ x : ℝ, (if leB (if leB s.strain 0.0 = true then 1e-12 else s.strain) 0.0 = true
      then Except.error Err.valueError else Except.ok x) ≠ (Except.error .infinite : Except Err ℝ) := by
    intro x hx
    exact ite_error_ne (by decide) hx
  intro h
  split at h
  · rcases bind_error_iff.mp h with h | ⟨_, _, h⟩
    · exact hd _ _ h
    rcases bind_error_iff.mp h with h | ⟨_, _, h⟩
    · exact hp _ _ h
    rcases bind_error_iff.mp h with h | ⟨_, _, h⟩
    · exact hp _ _ h
    rcases bind_error_iff.mp h with h | ⟨_, _, h⟩
    · exact hp _ _ h
    exact fin _ h
  · rcases bind_error_iff.mp h with h | ⟨_, _, h⟩
    · exact hd _ _ h
    rcases bind_error_iff.mp h with h | ⟨_, _, h⟩
    · exact hp _ _ h
    rcases bind_error_iff.mp h with h | ⟨_, _, h⟩
    · exact hp _ _ h
    exact fin _ h

theorem melt_no_valueError (m : MeltModel ℝ) (s : FlowState ℝ) : m.viscosity s ≠ .error .valueError := by
  obtain ⟨h1, h2, h3⟩ := C28_melt_laws s
  cases m
  · rw [h1]; simp
  · rw [h2]; split <;> simp
  · rw [h3]; split <;> simp

/-- **C32**. The `strain_rate <= 0` ValueError at the end of the computation is unreachable: no state makes the BLL
    model raise a ValueError. -/
theorem C32_bll_no_valueError (pm bs bg r t pc : ℝ) (ves : VesicleModel ℝ) (melt : MeltModel ℝ) (s : FlowState ℝ) :
    (RelModel.bll pm bs bg r t pc ves melt).relative s ≠ .error .valueError := by
  have hp : ∀ x y : ℝ, PyNum.pow x y ≠ .error .valueError := by
    intro x y
    rw [pow_real]; unfold realPow
    split
    · simp
    · split <;> simp
  have hd : ∀ x y : ℝ, PyNum.div x y ≠ .error .valueError := by
    intro x y h; have := (div_error_iff.mp h).2; cases this
  unfold RelModel.relative bllRelative; dsimp only
  intro h
  rcases bind_error_iff.mp h with h | ⟨_, _, h⟩
  · exact melt_no_valueError _ _ h
  rcases bind_error_iff.mp h with h | ⟨_, _, h⟩
  · exact hd _ _ h
  split at h
  · cases h
  have fin : ∀ x : ℝ, (if leB (if leB s.strain 0.0 = true then 1e-12 else s.strain) 0.0 = true
      then Except.error Err.valueError else Except.ok x) ≠ (Except.error .valueError : Except Err ℝ) := by
    intro x hx
    rw [if_neg] at hx
    · cases hx
    · rw [leB_real]
      by_cases hs : leB s.strain 0.0 = true
      · rw [if_pos hs]; norm_num
      · rw [if_neg hs]; rwa [leB_real] at hs
  split at h
  · rcases bind_error_iff.mp h with h | ⟨_, _, h⟩
    · exact hd _ _ h
    rcases bind_error_iff.mp h with h | ⟨_, _, h⟩
    · exact hp _ _ h
    rcases bind_error_iff.mp h with h | ⟨_, _, h⟩
    · exact hp _ _ h
    rcases bind_error_iff.mp h with h | ⟨_, _, h⟩
    · exact hp _ _ h
    exact fin _ h
  · rcases bind_error_iff.mp h with h | ⟨_, _, h⟩
    · exact hd _ _ h
    rcases bind_error_iff.mp h with h | ⟨_, _, h⟩
    · exact hp _ _ h
    rcases bind_error_iff.mp h with h | ⟨_, _, h⟩
    · exact hp _ _ h
    exact fin _ h

/-! ### C33 -/

/-- The error function stays below one. -/
theorem erf_le_one (x : ℝ) (hx : 0 ≤ x) : erf x ≤ 1 := by
  have hgi : MeasureTheory.IntegrableOn (fun t : ℝ => Real.exp (-1 * t ^ 2)) (Set.Ioi 0) :=
    (integrable_exp_neg_mul_sq (by norm_num : (0:ℝ) < 1)).integrableOn
  have h1 : ∫ t in (0:ℝ)..x, Real.exp (-t ^ 2) ≤ ∫ t in Set.Ioi (0:ℝ), Real.exp (-1 * t ^ 2) := by
    rw [intervalIntegral.integral_of_le hx]
    have e : ∀ t : ℝ, Real.exp (-t ^ 2) = Real.exp (-1 * t ^ 2) := by intro t; congr 1; ring
    simp only [e]
    apply MeasureTheory.setIntegral_mono_set hgi
    · exact Filter.Eventually.of_forall fun t => (Real.exp_pos _).le
    · exact Filter.Eventually.of_forall fun t ht => ht.1
  rw [integral_gaussian_Ioi] at h1
  unfold erf
  have hs : 0 < Real.sqrt Real.pi := Real.sqrt_pos.mpr Real.pi_pos
  calc 2 / Real.sqrt Real.pi * ∫ t in (0:ℝ)..x, Real.exp (-t ^ 2)
      ≤ 2 / Real.sqrt Real.pi * (Real.sqrt (Real.pi / 1) / 2) := by
        apply mul_le_mul_of_nonneg_left h1; positivity
    _ = 1 := by rw [div_one]; field_simp

theorem erf_nonneg (x : ℝ) (hx : 0 ≤ x) : 0 ≤ erf x := by
  unfold erf
  apply mul_nonneg (by positivity)
  apply intervalIntegral.integral_nonneg hx
  intro t _
  exact (Real.exp_pos _).le

theorem costaLaw_pos {δ γ φs ε φ : ℝ} (hs : 0 < φs) (he : 0 < ε) (he1 : ε < 1) (hγ : 0 ≤ γ) (hδ : 0 ≤ δ)
    (h0 : 0 ≤ φ) :
    costaLaw δ γ φs ε φ = .ok (costa δ γ φs ε φ) ∧ 0 < costa δ γ φs ε φ := by
  have hq : 0 ≤ φ / φs := div_nonneg h0 hs.le
  have hg : 0 ≤ (φ / φs) ^ γ := Real.rpow_nonneg hq _
  have hd : 0 ≤ (φ / φs) ^ δ := Real.rpow_nonneg hq _
  have hsp : 0 < Real.sqrt Real.pi := Real.sqrt_pos.mpr Real.pi_pos
  set a := min 25 (Real.sqrt Real.pi / (2 * (1 - ε)) * (φ / φs) * (1 + (φ / φs) ^ γ)) with ha
  have ha0 : 0 ≤ a := by
    apply le_min (by norm_num)
    have : 0 < 1 - ε := by linarith
    positivity
  have hf : 0 < 1 - (1 - ε) * erf a := by
    have h1 := erf_le_one a ha0
    have h2 := erf_nonneg a ha0
    nlinarith
  have hden : 0 < (1 - (1 - ε) * erf a) ^ (2.5 * φs) := Real.rpow_pos_of_pos hf _
  refine ⟨?_, ?_⟩
  · unfold costaLaw
    rw [div_of_ne (by rw [one_lit]; have : 0 < 1 - ε := by linarith
                      positivity), ok_bind, div_of_ne hs.ne', ok_bind, mpow_of_nonneg hq hγ, ok_bind,
      mpow_of_nonneg hq hδ, ok_bind]
    have ea : pyMin 25.0 (PyNum.sqrt PyNum.pi / (2.0 * (1.0 - ε)) * (φ / φs) * (1.0 + (φ / φs) ^ γ)) = a := by
      rw [pyMin_real, ha]
      show min _ (Real.sqrt Real.pi / _ * _ * _) = _
      norm_num
    have ee : (1.0 - (1.0 - ε) * PyNum.erf a : ℝ) = 1 - (1 - ε) * erf a := by
      rw [one_lit]; rfl
    simp only [ea, ee]
    rw [mpow_of_pos _ hf, ok_bind, div_of_ne hden.ne', one_lit]
    rfl
  · unfold costa
    apply div_pos (by linarith) hden

/-- The relative viscosity is positive whenever it is computed on such a state. -/
theorem rel_pos (m : RelModel ℝ) (s : FlowState ℝ) (h0 : 0 ≤ s.crystal) (hu : RelUsable s m) (r : ℝ)
    (h : m.relative s = .ok r) : 0 < r := by
  have std : RelValid s m → s.crystal < packingLimit s m → 0 < r := by
    intro hv hl
    obtain ⟨r', h', h1⟩ := C29_at_least_one m s hv h0 hl
    rw [h] at h'; injection h' with h'; linarith
  have mp : ∀ φm : ℝ, 0 < φm → s.crystal < φm → ∀ r, maronPierce s.crystal φm = .ok r → 0 < r := by
    intro φm hm hl r h
    rw [maronPierce_of_lt hm hl] at h
    injection h with h
    rw [← h]
    have := (div_lt_one hm).mpr hl
    exact Real.rpow_pos_of_pos (by linarith) _
  cases m with
  | mader rp =>
    obtain ⟨hrp, hl⟩ := hu
    have hp := muellerPacking_pos rp
    unfold RelModel.relative maderRelative at h; dsimp only at h
    rw [muellerPhimax_of_pos hrp, ok_bind, div_of_ne hp.ne', ok_bind] at h
    split at h
    · split at h
      · split at h
        · cases h
        · rename_i hs
          rw [leB_real] at hs
          obtain ⟨a, ha, h⟩ := bind_ok_iff.mp h
          obtain ⟨b, hb, h⟩ := bind_ok_iff.mp h
          rw [← pure_ok_iff.mp h, mpow_ok ha, pow_ok hb]
          have := (div_lt_one hp).mpr hl
          norm_num at hs
          have h1 : 0 < (1.0 - s.crystal / muellerPacking rp : ℝ) := by rw [one_lit]; linarith
          exact mul_pos (Real.rpow_pos_of_pos h1 _) (Real.rpow_pos_of_pos hs _)
      · exact mp _ hp hl _ h
    · exact mp _ hp hl _ h
  | bll pm bs bg rr t pc ves melt =>
    obtain ⟨hpm, hl⟩ := hu
    obtain ⟨hv, n, st, _, _, _, hst, hr⟩ := C32_bll_law pm bs bg rr t pc ves melt s r h
    have h1 := (div_lt_one hpm).mpr hl
    have hstp : 0 < st := by
      rw [hst]; split
      · norm_num
      · rename_i hh; exact not_le.mp hh
    rw [hr]
    unfold bllNewtonian
    exact mul_pos (mul_pos (Real.rpow_pos_of_pos (by linarith) _) (Real.rpow_pos_of_pos (by linarith) _))
      (Real.rpow_pos_of_pos hstp _)
  | costa1 p =>
    unfold RelModel.relative at h; dsimp only at h
    split at h
    · obtain ⟨e, hpos⟩ := costaLaw_pos (δ := 11.4) (γ := 1.6) (φs := 0.67) (ε := 0.01) (φ := s.crystal)
        (by norm_num) (by norm_num) (by norm_num) (by norm_num) (by norm_num) h0
      rw [e] at h; injection h with h; rw [← h]; exact hpos
    · split at h
      · obtain ⟨e, hpos⟩ := costaLaw_pos (δ := 11.48) (γ := 1.52) (φs := 0.62) (ε := 0.005) (φ := s.crystal)
          (by norm_num) (by norm_num) (by norm_num) (by norm_num) (by norm_num) h0
        rw [e] at h; injection h with h; rw [← h]; exact hpos
      · cases h
  | costa2 p =>
    unfold RelModel.relative at h; dsimp only at h
    split at h
    · obtain ⟨e, hpos⟩ := costaLaw_pos (δ := 4.45) (γ := 8.55) (φs := 0.28) (ε := 0.001) (φ := s.crystal)
        (by norm_num) (by norm_num) (by norm_num) (by norm_num) (by norm_num) h0
      rw [e] at h; injection h with h; rw [← h]; exact hpos
    · split at h
      · obtain ⟨e, hpos⟩ := costaLaw_pos (δ := 7.5) (γ := 5.5) (φs := 0.26) (ε := 0.0002) (φ := s.crystal)
          (by norm_num) (by norm_num) (by norm_num) (by norm_num) (by norm_num) h0
        rw [e] at h; injection h with h; rw [← h]; exact hpos
      · cases h
  | er => exact std hu.1 hu.2
  | kd _ _ => exact std hu.1 hu.2
  | mp _ => exact std hu.1 hu.2
  | mpMueller _ => exact std hu.1 hu.2
  | ptp1 _ => exact std hu.1 hu.2
  | ptp2 _ => exact std hu.1 hu.2
  | ptp3 _ => exact std hu.1 hu.2

theorem bub_pos (m : BubModel ℝ) (s : FlowState ℝ) (hv : bubVesicles s m < 1) (c : ℝ)
    (h : m.relative s = .ok c) : 0 < c := by
  cases m <;> unfold BubModel.relative at h <;> dsimp only at h <;> simp only [bubVesicles] at hv
  · injection h with h; rw [← h]; norm_num
  · rw [mpow_ok h, one_lit]; exact Real.rpow_pos_of_pos (by linarith) _
  · rw [five_thirds, ok_bind] at h
    rw [mpow_ok h, one_lit]; exact Real.rpow_pos_of_pos (by linarith) _
  · obtain ⟨_, _, h⟩ := bind_ok_iff.mp h
    obtain ⟨_, _, h⟩ := bind_ok_iff.mp h
    obtain ⟨_, _, h⟩ := bind_ok_iff.mp h
    split at h
    · rw [pow_ok h, one_lit]; exact Real.rpow_pos_of_pos (by linarith) _
    · rw [five_thirds, ok_bind] at h
      rw [pow_ok h, one_lit]; exact Real.rpow_pos_of_pos (by linarith) _

/-- **C33**. Whatever the combination of models: when the bulk viscosity is computed it is the product of the
    melt, crystal and bubble factors ... -/
theorem C33_bulk_is_product (l : Lava ℝ) (s : FlowState ℝ) (mu : ℝ) :
    l.bulkViscosity s = .ok mu ↔ ∃ a b c, l.melt.viscosity s = .ok a ∧ l.rel.relative s = .ok b ∧
      l.bub.relative s = .ok c ∧ mu = a * b * c := by
  unfold Lava.bulkViscosity
  simp only [bind_ok_iff, pure_ok_iff]
  constructor
  · rintro ⟨a, ha, b, hb, c, hc, e⟩; exact ⟨a, b, c, ha, hb, hc, e.symm⟩
  · rintro ⟨a, b, c, ha, hb, hc, e⟩; exact ⟨a, ha, b, hb, c, hc, e.symm⟩

/-- **C33**. ... and, with valid melt parameters, crystals below packing and vesicles below one, it is positive. -/
theorem C33_bulk_positive (l : Lava ℝ) (s : FlowState ℝ) (mu : ℝ) (hm : MeltValid l.melt)
    (h0 : 0 ≤ s.crystal) (hr : RelUsable s l.rel) (hb : bubVesicles s l.bub < 1)
    (h : l.bulkViscosity s = .ok mu) : 0 < mu := by
  obtain ⟨a, b, c, ha, hb', hc, e⟩ := (C33_bulk_is_product l s mu).mp h
  rw [e]
  exact mul_pos (mul_pos (melt_pos_of_ok _ hm _ _ ha) (rel_pos _ _ h0 hr _ hb')) (bub_pos _ _ hb _ hc)

/-- A three-phase lava (bll crystals and bubbles, VFT melt) within the hypotheses. -/
example : MeltValid (.vft (-4.52) 5558 582.9) ∧
    RelUsable (exState 0.3 0) (.bll 0.6 2.5 1 0.0001 0.3 0.35 (.constant 0.2) (.vft (-4.52) 5558 582.9)) ∧
    bubVesicles (exState 0.3 0) (.rigid (.constant 0.2)) < 1 := by
  norm_num [MeltValid, RelUsable, bubVesicles, exState, VesicleModel.fraction]
/-- A BLL viscosity that is computed. -/
example : ∃ r, (RelModel.bll 0.6 2.5 1 0.0001 0.3 0.35 (.constant 0.2) (.basic 100 1000) : RelModel ℝ).relative
    (exState 0.3 0) = .ok r := by
  have h := C30_bll_fails_exactly_at_phimax 0.6 2.5 1 0.0001 0.3 0.35 (.constant 0.2) (.basic 100 1000) (exState 0.3 0)
    _ ((C28_melt_laws _).1 _ _) (by norm_num) (by norm_num) (by norm_num) (by norm_num [VesicleModel.fraction])
    (by norm_num [VesicleModel.fraction]) (by
      unfold RelModel.notCompatible; dsimp only; congr 1
      rw [← Bool.not_eq_true, ltB_real]; norm_num [VesicleModel.fraction, exState])
  cases hr : (RelModel.bll 0.6 2.5 1 0.0001 0.3 0.35 (.constant 0.2) (.basic 100 1000) : RelModel ℝ).relative
    (exState 0.3 0) with
  | ok r => exact ⟨r, rfl⟩
  | error e => have := h.1.mp ⟨e, hr⟩; norm_num [exState] at this

end PyFlowGo
