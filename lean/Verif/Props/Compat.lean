import Verif.Props.RelVisc
/-
  C30: the compatibility check and the viscosity computation.
-/
namespace PyFlowGo
open Spec

theorem not_isInt_two_half : ¬ IsInt (-2.5) := by
  rintro ⟨n, h⟩
  have h2 : ((2 * n : ℤ) : ℝ) = ((-5 : ℤ) : ℝ) := by push_cast; rw [h]; norm_num
  have : 2 * n = -5 := by exact_mod_cast h2
  omega

/-- **C30**, Einstein-Roscoe: the check answers, and it accepts exactly the states on which the viscosity is
    computed. -/
theorem C30_er_check_is_exact (s : FlowState ℝ) :
    ∃ b, (RelModel.er : RelModel ℝ).notCompatible s = .ok b ∧
      (b = false ↔ ∃ r, (RelModel.er : RelModel ℝ).relative s = .ok r) := by
  unfold RelModel.notCompatible RelModel.relative
  dsimp only
  rw [div_of_ne (by norm_num), ok_bind]
  refine ⟨_, rfl, ?_⟩
  rw [← Bool.not_eq_true, leB_real]
  constructor
  · intro h
    refine ⟨_, mpow_of_pos _ ?_⟩
    rw [not_le, lt_div_iff₀ (by norm_num)] at h
    norm_num at h ⊢; linarith
  · rintro ⟨r, hr⟩ hle
    rw [mpow_real, realPow_ok_iff] at hr
    obtain ⟨h1, h2, _⟩ := hr
    rw [div_le_iff₀ (by norm_num)] at hle
    rcases lt_or_eq_of_le (show (1.0 - 1.51 * s.crystal : ℝ) ≤ 0 by norm_num at hle ⊢; linarith) with h | h
    · exact h2 ⟨h, not_isInt_two_half⟩
    · exact h1 ⟨h, by norm_num⟩

/-- **C30**, the other laws with a packing limit: the check rejects exactly the crystal fractions above the
    limit ... -/
theorem C30_check_is_packing (m : RelModel ℝ) (s : FlowState ℝ) (hne : m ≠ .er) (hv : RelValid s m) :
    ∃ b, m.notCompatible s = .ok b ∧ (b = false ↔ s.crystal ≤ packingLimit s m) := by
  cases m <;> simp only [RelValid, packingLimit] at * <;> unfold RelModel.notCompatible <;> dsimp only
  · exact absurd rfl hne
  · rw [div_of_ne hv.1.ne', ok_bind]
    refine ⟨_, rfl, ?_⟩
    rw [← Bool.not_eq_true, ltB_real, one_lit, not_lt, div_le_one hv.1]
  · rw [div_of_ne hv.ne', ok_bind]
    refine ⟨_, rfl, ?_⟩
    rw [← Bool.not_eq_true, ltB_real, one_lit, not_lt, div_le_one hv]
  · rw [muellerPhimax_of_pos hv, ok_bind, div_of_ne (muellerPacking_pos _).ne', ok_bind]
    refine ⟨_, rfl, ?_⟩
    rw [← Bool.not_eq_true, ltB_real, one_lit, not_lt, div_le_one (muellerPacking_pos _)]
  all_goals
    refine ⟨_, rfl, ?_⟩
    rw [← Bool.not_eq_true, ltB_real, one_lit, not_lt]

theorem realPow_zero_neg {e1 e2 : Err} {y : ℝ} (hy : y < 0) : realPow e1 e2 0 y = .error e1 := by
  unfold realPow; rw [if_pos ⟨rfl, hy⟩]

/-- **C30**, ... so among the accepted states (crystal fraction >= 0) the viscosity computation fails exactly
    at the packing limit. -/
theorem C30_accepted_fails_exactly_at_packing (m : RelModel ℝ) (s : FlowState ℝ) (hne : m ≠ .er)
    (hv : RelValid s m) (h0 : 0 ≤ s.crystal) (hc : m.notCompatible s = .ok false) :
    (∃ e, m.relative s = .error e) ↔ s.crystal = packingLimit s m := by
  have hle : s.crystal ≤ packingLimit s m := by
    obtain ⟨b, hb, hle⟩ := C30_check_is_packing m s hne hv
    rw [hc] at hb
    injection hb with hb
    exact hle.mp hb.symm
  constructor
  · rintro ⟨e, he⟩
    by_contra hne'
    rw [C29_relative_viscosity_laws m s hv h0 (lt_of_le_of_ne hle hne')] at he
    cases he
  · intro he
    have hpos := packingLimit_pos s m hv
    have mp : ∀ φm : ℝ, 0 < φm → s.crystal = φm → ∃ e, maronPierce s.crystal φm = .error e := by
      intro φm hm he
      unfold maronPierce
      rw [div_of_ne hm.ne', ok_bind, he, div_self hm.ne', one_lit, sub_self]
      exact ⟨_, realPow_zero_neg (by norm_num)⟩
    cases m <;> simp only [RelValid, packingLimit] at * <;> unfold RelModel.relative <;> dsimp only
    · exact absurd rfl hne
    · rw [div_of_ne hpos.ne', ok_bind, he, div_self hpos.ne', one_lit, sub_self]
      exact ⟨_, realPow_zero_neg (by nlinarith [mul_pos hv.2 hv.1])⟩
    · exact mp _ hpos he
    · rw [muellerPhimax_of_pos hv, ok_bind]; exact mp _ hpos he
    · rw [one_lit, div_of_ne hpos.ne', ok_bind, he, div_self hpos.ne', sub_self, pow_real,
        realPow_zero_neg (by norm_num), error_bind]
      exact ⟨_, rfl⟩
    · rename_i ves
      rw [one_lit, div_of_ne (by linarith [hv.1]), ok_bind, show 1 - s.crystal - ves.fraction s = 0 by linarith,
        mpow_real]
      refine ⟨_, realPow_zero_neg ?_⟩
      have : 0 < ves.fraction s := hv.1
      have : 0 < (5.0 * s.crystal + 2.0 * ves.fraction s) / (2.0 * (s.crystal + ves.fraction s)) := by positivity
      linarith
    · rename_i ves
      rw [one_lit, show 1 - s.crystal = ves.fraction s by linarith]
      by_cases hz : ves.fraction s = 0
      · rw [hz, div_real, if_pos rfl, error_bind]; exact ⟨_, rfl⟩
      · rw [div_of_ne hz, ok_bind, div_self hz, sub_self, pow_real, realPow_zero_neg (by norm_num), error_bind]
        exact ⟨_, rfl⟩

/-- **C30**, ptp2 also fails on an accepted state without crystals and vesicles (0/0 in its exponent). -/
theorem C30_ptp2_fails_on_pure_melt (ves : VesicleModel ℝ) (s : FlowState ℝ) (h0 : s.crystal = 0)
    (hv : ves.fraction s = 0) :
    (RelModel.ptp2 ves).notCompatible s = .ok false ∧ (RelModel.ptp2 ves).relative s = .error .zeroDiv := by
  constructor
  · unfold RelModel.notCompatible; dsimp only
    rw [hv, h0, one_lit]
    congr 1
    rw [← Bool.not_eq_true, ltB_real]; norm_num
  · unfold RelModel.relative; dsimp only
    rw [hv, h0, div_real, if_pos (by norm_num), error_bind]

/-- **C30**, mader: the check rejects nothing but the packing limit itself ... -/
theorem C30_mader_check (rp : ℝ) (hrp : 0 < rp) (s : FlowState ℝ) :
    ∃ b, (RelModel.mader rp).notCompatible s = .ok b ∧ (b = true ↔ s.crystal = muellerPacking rp) := by
  unfold RelModel.notCompatible; dsimp only
  rw [muellerPhimax_of_pos hrp, ok_bind, div_of_ne (muellerPacking_pos _).ne', ok_bind]
  refine ⟨_, rfl, ?_⟩
  rw [eqB_real, one_lit, div_eq_one_iff_eq (muellerPacking_pos _).ne']

/-- **C30**, ... so it accepts crystal fractions beyond packing, and there the law is meaningless: at twice the
    packing limit (aspect ratio <= 1/32) the lava is as thin as without crystals. -/
theorem C30_mader_beyond_packing (rp : ℝ) (hrp : 0 < rp) (hle : rp ≤ 1 / 32) (s : FlowState ℝ)
    (hφ : s.crystal = 2 * muellerPacking rp) :
    (RelModel.mader rp).notCompatible s = .ok false ∧ (RelModel.mader rp).relative s = .ok 1 := by
  have hp := muellerPacking_pos rp
  constructor
  · obtain ⟨b, hb, hiff⟩ := C30_mader_check rp hrp s
    rw [hb]
    congr 1
    rw [← Bool.not_eq_true, hiff]
    intro h; linarith
  · have hq : s.crystal / muellerPacking rp = 2 := by rw [hφ]; field_simp
    unfold RelModel.relative maderRelative; dsimp only
    rw [muellerPhimax_of_pos hrp, ok_bind, div_of_ne hp.ne', ok_bind, hq, if_pos (by rw [leB_real]; norm_num),
      if_neg (by rw [ltB_real, npow_real]; norm_num; linarith)]
    unfold maronPierce
    rw [div_of_ne hp.ne', ok_bind, hq, mpow_real, realPow_ok_iff]
    refine ⟨by norm_num, ?_, ?_⟩
    · rintro ⟨_, h⟩
      exact h ⟨-2, by norm_num⟩
    · rw [show (1.0 - 2 : ℝ) = -1 by norm_num, show (-2.0 : ℝ) = ((-2 : ℤ) : ℝ) by norm_num, Real.rpow_intCast]
      norm_num

/-- **C30**, mader: an accepted state with crystals above half packing, a flow index below 0.9 and no strain
    raises ValueError. -/
theorem C30_mader_needs_strain (rp : ℝ) (hrp : 0 < rp) (s : FlowState ℝ)
    (hhalf : muellerPacking rp / 2 ≤ s.crystal)
    (hn : 1 - 0.2 * rp * (s.crystal / muellerPacking rp) ^ 4 < 0.9) (hs : s.strain ≤ 0) :
    (RelModel.mader rp).relative s = .error .valueError := by
  have hp := muellerPacking_pos rp
  unfold RelModel.relative maderRelative; dsimp only
  rw [muellerPhimax_of_pos hrp, ok_bind, div_of_ne hp.ne', ok_bind, if_pos, if_pos, if_pos]
  · rw [leB_real]; norm_num; exact hs
  · rw [ltB_real, npow_real, one_lit]; exact hn
  · rw [leB_real, le_div_iff₀ hp]; norm_num; linarith

/-- **C30**, bll: with a computable melt viscosity, non-zero surface tension and vesicle fraction in [0,1), an
    accepted state fails exactly at crystal fraction phimax (which an accepted state reaches only without
    vesicles). -/
theorem C30_bll_fails_exactly_at_phimax (pm bs bg r t pc : ℝ) (ves : VesicleModel ℝ) (melt : MeltModel ℝ)
    (s : FlowState ℝ) (eta : ℝ) (hm : melt.viscosity s = .ok eta) (ht : t ≠ 0) (hpm : 0 < pm) (hbs : 0 < bs)
    (hv0 : 0 ≤ ves.fraction s) (hv1 : ves.fraction s < 1)
    (hc : (RelModel.bll pm bs bg r t pc ves melt).notCompatible s = .ok false) :
    ((∃ e, (RelModel.bll pm bs bg r t pc ves melt).relative s = .error e) ↔ s.crystal = pm) ∧
    (s.crystal = pm → ves.fraction s = 0) := by
  have hle : s.crystal ≤ pm * (1 - ves.fraction s) := by
    unfold RelModel.notCompatible at hc; dsimp only at hc
    injection hc with hc
    rw [← Bool.not_eq_true, ltB_real, one_lit, not_lt] at hc
    exact hc
  have hle' : s.crystal ≤ pm := by nlinarith
  refine ⟨?_, ?_⟩
  swap
  · intro h; rw [h] at hle; nlinarith
  have key : ∀ (x : ℝ), 0 < 1 - s.crystal / pm → PyNum.pow (1.0 - s.crystal / pm) x = .ok ((1 - s.crystal / pm) ^ x) := by
    intro x h; rw [one_lit]; exact pow_of_pos x h
  unfold RelModel.relative bllRelative; dsimp only
  rw [hm, ok_bind, div_of_ne ht, ok_bind, if_neg (by rw [leB_real, one_lit]; linarith)]
  set st := if leB s.strain 0.0 = true then 1e-12 else s.strain with hst
  have hstpos : 0 < st := by
    rw [hst]; split
    · norm_num
    · rename_i h; rw [leB_real] at h; norm_num at h; exact h
  have hstneg : ¬ (leB st 0.0 = true) := by rw [leB_real]; norm_num; exact hstpos
  rw [div_of_ne hpm.ne']
  simp only [ok_bind]
  constructor
  · rintro ⟨e, he⟩
    by_contra hne
    have hb : 0 < 1 - s.crystal / pm := by
      have := (div_lt_one hpm).mpr (lt_of_le_of_ne hle' hne); linarith
    rw [key _ hb, ok_bind, ok_bind, pow_of_pos _ (show (0:ℝ) < 1.0 - ves.fraction s by rw [one_lit]; linarith),
      pow_of_pos _ hstpos] at he
    simp only [ok_bind, pure_eq_ok, if_neg hstneg] at he
    split at he <;> cases he
  · intro he
    rw [he, div_self hpm.ne', one_lit, sub_self, pow_real, realPow_zero_neg (by linarith)]
    simp only [error_bind]
    refine ⟨.zeroDiv, ?_⟩
    split <;> rfl

/-- **C30**, costa: everything is accepted, and for a `strain_rate` parameter other than 1.0 and 0.0001 no number
    is produced for any state. -/
theorem C30_costa_accepts_everything (p : ℝ) (h1 : p ≠ 1) (h2 : p ≠ 0.0001) (s : FlowState ℝ) :
    (RelModel.costa1 p).notCompatible s = .ok false ∧ (RelModel.costa1 p).relative s = .error .typeError ∧
    (RelModel.costa2 p).notCompatible s = .ok false ∧ (RelModel.costa2 p).relative s = .error .typeError := by
  have e1 : ¬ (eqB p 1.0 = true) := by rw [eqB_real, one_lit]; exact h1
  have e2 : ¬ (eqB p 0.0001 = true) := by rw [eqB_real]; exact h2
  refine ⟨rfl, ?_, rfl, ?_⟩ <;> unfold RelModel.relative <;> dsimp only <;> rw [if_neg e1, if_neg e2]

/-- The failing boundary is reached by a concrete accepted state of every kind. -/
example : (RelModel.kd 0.6 2.5 : RelModel ℝ).notCompatible (exState 0.6 0) = .ok false ∧
    RelValid (exState 0.6 0) (.kd 0.6 2.5) := by
  refine ⟨?_, by norm_num [RelValid]⟩
  obtain ⟨b, hb, h⟩ := C30_check_is_packing (.kd 0.6 2.5) (exState 0.6 0) (by simp) (by norm_num [RelValid])
  rw [hb, h.mpr (by norm_num [packingLimit, exState])]

end PyFlowGo
