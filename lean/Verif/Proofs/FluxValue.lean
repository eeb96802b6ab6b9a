import Verif.Proofs.FluxLemmas
import Verif.Spec.HeatSpec
import Verif.Spec.Rheology
import Verif.Proofs.Examples
/-
  The value of every flux on ℝ and when it exists (used by C41-C47).
-/
namespace PyFlowGo
open Spec

/-! ### The scalar formulas on ℝ -/

theorem planck_ok {t : ℝ} (ht : t ≠ 0) : ∃ r, planck t = .ok r := by
  unfold planck
  simp only [PyNum.exp]
  have h1 : (1.38 * 1e-23 : ℝ) ≠ 0 := by norm_num
  rw [div_of_ne h1, ok_bind]
  have h2 : (0 : ℝ) < 0.8675 * 1e-6 := by norm_num
  rw [pow_of_pos _ h2, ok_bind]
  have h3 : (0.8675 * 1e-6 : ℝ) * t ≠ 0 := mul_ne_zero h2.ne' ht
  rw [div_of_ne h3, ok_bind]
  rw [div_of_ne]
  · exact ⟨_, rfl⟩
  · intro h
    have h4 : Real.exp (6.6256 * 1e-34 * (2.9979 * 1e8) / (1.38 * 1e-23) / (0.8675 * 1e-6 * t)) = 1 := by
      linarith
    rw [Real.exp_eq_one_iff] at h4
    have : (6.6256 * 1e-34 * (2.9979 * 1e8) / (1.38 * 1e-23) / (0.8675 * 1e-6 * t) : ℝ) ≠ 0 := by
      apply div_ne_zero
      · norm_num
      · exact h3
    exact this h4

theorem planck_zero : planck (0 : ℝ) = .error .zeroDiv := by
  unfold planck
  dsimp only
  have h1 : (1.38 * 1e-23 : ℝ) ≠ 0 := by norm_num
  rw [div_of_ne h1, ok_bind]
  have h2 : (0 : ℝ) < 0.8675 * 1e-6 := by norm_num
  rw [pow_of_pos _ h2, ok_bind, mul_zero]
  rw [(div_error_iff (x := _) (y := (0 : ℝ)) (e := .zeroDiv)).mpr ⟨rfl, rfl⟩, error_bind]

theorem spectralFormula_ok_iff {lp f tc tm em ec width : ℝ} (hlp : lp ≠ 0) :
    (∃ r, spectralRadianceFormula lp f tc tm em ec width = .ok r) ↔ tc ≠ 0 ∧ tm ≠ 0 := by
  unfold spectralRadianceFormula
  have hl : lp * lp ≠ 0 := mul_ne_zero hlp hlp
  dsimp only
  rw [div_of_ne hl, div_of_ne hl, ok_bind, ok_bind]
  obtain ⟨b, hb⟩ := planck_ok (t := 258.0) (by norm_num)
  constructor
  · rintro ⟨r, h⟩
    obtain ⟨bc, h1, h⟩ := bind_ok_iff.mp h
    obtain ⟨bm, h2, h⟩ := bind_ok_iff.mp h
    constructor <;> rintro rfl
    · rw [planck_zero] at h1; cases h1
    · rw [planck_zero] at h2; cases h2
  · rintro ⟨h1, h2⟩
    obtain ⟨bc, h1⟩ := planck_ok h1
    obtain ⟨bm, h2⟩ := planck_ok h2
    rw [h1, h2, hb, ok_bind, ok_bind, ok_bind]
    exact ⟨_, rfl⟩

theorem not_isInt_of_between {y : ℝ} (n : ℤ) (h1 : (n : ℝ) < y) (h2 : y < n + 1) : ¬ IsInt y := by
  rintro ⟨k, rfl⟩
  have a : n < k := by exact_mod_cast h1
  have b : k < n + 1 := by exact_mod_cast h2
  omega

/-- A power with a positive non-integer exponent exists exactly for non-negative bases. -/
theorem realPow_frac {e1 e2 : Err} {x y z : ℝ} (hy : 0 < y) (hI : ¬ IsInt y) :
    realPow e1 e2 x y = .ok z ↔ 0 ≤ x ∧ z = x ^ y := by
  rw [realPow_ok_iff]
  constructor
  · rintro ⟨_, h2, h3⟩
    exact ⟨not_lt.mp fun h => h2 ⟨h, hI⟩, h3⟩
  · rintro ⟨h1, h2⟩
    exact ⟨fun h => by linarith [h.2], fun h => by linarith [h.1], h2⟩

theorem effectiveRadiationFormula_iff {f tc tm ta te : ℝ} :
    effectiveRadiationFormula f tc tm ta = .ok te ↔
      0 ≤ radiantExchange f tc tm ta ∧ te = radiantExchange f tc tm ta ^ (1 / 4 : ℝ) := by
  unfold effectiveRadiationFormula
  simp only [PyNum.npow]
  rw [show (f * (tc ^ 4 - ta ^ 4) + (1.0 - f) * (tm ^ 4 - ta ^ 4) : ℝ) = radiantExchange f tc tm ta by
    unfold radiantExchange; norm_num]
  rw [show (0.25 : ℝ) = 1 / 4 by norm_num]
  exact realPow_frac (by norm_num) (not_isInt_of_between 0 (by norm_num) (by norm_num))

theorem characteristicFormula_iff {f tc tm t : ℝ} :
    characteristicFormula f tc tm = .ok t ↔
      0 ≤ tc ∧ 0 ≤ tm ∧ 0 ≤ mix f (tc ^ (1.333 : ℝ)) (tm ^ (1.333 : ℝ)) ∧ t = convectiveTemperature f tc tm := by
  unfold characteristicFormula
  have hI : ¬ IsInt (1.333 : ℝ) := not_isInt_of_between 1 (by norm_num) (by norm_num)
  have hJ : ¬ IsInt (0.75 : ℝ) := not_isInt_of_between 0 (by norm_num) (by norm_num)
  have e : (f * tc ^ (1.333 : ℝ) + (1.0 - f) * tm ^ (1.333 : ℝ) : ℝ) = mix f (tc ^ (1.333 : ℝ)) (tm ^ (1.333 : ℝ)) := by
    unfold mix; norm_num
  constructor
  · intro h
    obtain ⟨a, ha, h⟩ := bind_ok_iff.mp h
    obtain ⟨b, hb, h⟩ := bind_ok_iff.mp h
    obtain ⟨ha1, rfl⟩ := (realPow_frac (by norm_num) hI).mp ha
    obtain ⟨hb1, rfl⟩ := (realPow_frac (by norm_num) hI).mp hb
    obtain ⟨hc, rfl⟩ := (realPow_frac (by norm_num) hJ).mp h
    rw [e] at hc ⊢
    exact ⟨ha1, hb1, hc, rfl⟩
  · rintro ⟨h1, h2, h3, rfl⟩
    rw [pow_of_nonneg h1 (by norm_num), ok_bind, pow_of_nonneg h2 (by norm_num), ok_bind, e]
    exact (realPow_frac (by norm_num) hJ).mpr ⟨h3, rfl⟩

theorem cover_value (c : CoverModel ℝ) (pos v : ℝ) : c.value pos v = coverLaw c pos v := by
  cases c with
  | basic a f => rfl
  | bimodal d a1 a2 f1 f2 => simp [CoverModel.value, coverLaw]

theorem quarter_fourth {B : ℝ} (hB : 0 ≤ B) : (B ^ (1 / 4 : ℝ)) ^ 4 = B := by
  rw [← Real.rpow_natCast, ← Real.rpow_mul hB]
  norm_num

theorem cont_law (t : ℝ) : emissivityCont t = quadraticEmissivity t := by
  unfold emissivityCont quadraticEmissivity; simp only [PyNum.npow]; ring

theorem lin_law (t : ℝ) : emissivityLin t = linearEmissivity t := by
  unfold emissivityLin linearEmissivity; ring

/-! ### The value of every flux -/

theorem touched_st_eq (w : World ℝ) (x : ℝ) (es : List (String × Cell ℝ)) :
    (w.touched x es).st = { w.st with strain := x } := rfl
theorem touched_terrain_eq (w : World ℝ) (x : ℝ) (es : List (String × Cell ℝ)) :
    (w.touched x es).terrain = w.terrain := rfl

theorem molten_strain (l : Lava ℝ) (s : FlowState ℝ) (x : ℝ) :
    l.moltenTemperature { s with strain := x } = l.moltenTemperature s := rfl

/-- The radiative fluxes for a strain-independent lava. `epsilon` must compute `E f tc tm` whatever was
    logged before. -/
theorem radiation_value {m : Models ℝ} (hl : StrainIndependent m.lava) {sigma lp width q : ℝ} (hlp : lp ≠ 0)
    {epsilon : PyM (World ℝ) ℝ} {eps : ℝ → ℝ → ℝ × ℝ} (w : World ℝ) (E : ℝ → ℝ → ℝ → ℝ)
    (hE : ∀ (x : ℝ) (es : List (String × Cell ℝ)) v y tc, m.lava.meanVelocity w.terrain w.st = .ok (v, y) →
      m.crust.temperature w.st = .ok tc →
      0 ≤ radiantExchange (coverLaw m.cover w.st.pos v) tc (m.lava.moltenTemperature w.st) m.air.temp →
      ∃ x' es', epsilon (w.touched x es) =
        (.ok (E (coverLaw m.cover w.st.pos v) tc (m.lava.moltenTemperature w.st)), w.touched x' es')) :
    (∃ w', radiationFlux m sigma epsilon lp eps width w = (.ok q, w')) ↔
      ∃ v x tc, m.lava.meanVelocity w.terrain w.st = .ok (v, x) ∧ m.crust.temperature w.st = .ok tc ∧
        tc ≠ 0 ∧ m.lava.moltenTemperature w.st ≠ 0 ∧
        0 ≤ radiantExchange (coverLaw m.cover w.st.pos v) tc (m.lava.moltenTemperature w.st) m.air.temp ∧
        q = sigma * E (coverLaw m.cover w.st.pos v) tc (m.lava.moltenTemperature w.st) *
          radiantExchange (coverLaw m.cover w.st.pos v) tc (m.lava.moltenTemperature w.st) m.air.temp * width := by
  constructor
  · rintro ⟨w', h⟩
    obtain ⟨te, w1, e, w2, w3, h1, h2, h3, h4, rfl⟩ := radiationFlux_iff.mp h
    obtain ⟨v, x, tc, hv, htc, hte, rfl⟩ := effRad_iff.mp h1
    rw [cover_value] at hte
    obtain ⟨hB, rfl⟩ := effectiveRadiationFormula_iff.mp hte
    obtain ⟨x', es', he⟩ := hE x [("effective_radiation_temperature", .num _)] v x tc hv htc hB
    rw [he, Prod.mk.injEq, Except.ok.injEq] at h2
    obtain ⟨rfl, rfl⟩ := h2
    rw [logNum_touched] at h3
    subst h3
    obtain ⟨v2, x2, tc2, r, hv2, htc2, hr, -⟩ := spectral_iff.mp h4
    rw [touched_st_eq, touched_st_eq, crust_strain, crust_strain, htc] at htc2
    injection htc2 with htc2
    subst htc2
    obtain ⟨n1, n2⟩ := (spectralFormula_ok_iff hlp).mp ⟨r, hr⟩
    refine ⟨v, x, tc, hv, htc, n1, n2, hB, ?_⟩
    rw [npow_real, quarter_fourth hB]
  · rintro ⟨v, x, tc, hv, htc, n1, n2, hB, rfl⟩
    have hte := effectiveRadiationFormula_iff.mpr ⟨hB, rfl⟩
    have h1 := effRad_iff.mpr ⟨v, x, tc, hv, htc, by rw [cover_value]; exact hte, rfl⟩
    obtain ⟨x', es', he⟩ := hE x [("effective_radiation_temperature", .num _)] v x tc hv htc hB
    obtain ⟨r, hr⟩ := (spectralFormula_ok_iff (f := coverLaw m.cover w.st.pos v)
      (em := (eps tc (m.lava.moltenTemperature w.st)).1) (ec := (eps tc (m.lava.moltenTemperature w.st)).2)
      (width := width) hlp).mpr ⟨n1, n2⟩
    refine ⟨_, radiationFlux_iff.mpr ⟨_, _, _, _, _, h1, he, logNum_touched.mpr rfl, spectral_iff.mpr
      ⟨v, x, tc, r, ?_, ?_, ?_, rfl⟩, ?_⟩⟩
    · rw [touched_st_eq, touched_st_eq, touched_terrain_eq, touched_terrain_eq, meanVelocity_strain _ hl,
        touched_st_eq, meanVelocity_strain _ hl, hv]
    · rw [touched_st_eq, touched_st_eq, crust_strain, crust_strain, htc]
    · rw [touched_st_eq, touched_st_eq, molten_strain, molten_strain]
      rw [cover_value]
      exact hr
    · rw [npow_real, quarter_fourth hB]

/-- The model's molten surface temperature is the core temperature less the buffer. -/
theorem core_eq (l : Lava ℝ) (s : FlowState ℝ) : coreTemperature l s = l.moltenTemperature s := rfl

/-- The value of every flux of a strain-independent lava, and exactly when it can be computed. -/
theorem flux_value {m : Models ℝ} (hl : StrainIndependent m.lava) (fl : Flux ℝ) (width depth q : ℝ)
    (w : World ℝ) :
    (∃ w', fl.compute m width depth w = (.ok q, w')) ↔ FluxIs m width depth w.terrain w.st fl q := by
  have cov : ∀ (x : ℝ) (es : List (String × Cell ℝ)) v y, m.lava.meanVelocity w.terrain w.st = .ok (v, y) →
      effectiveCover m (w.touched x es) = (.ok (coverLaw m.cover w.st.pos v), (w.touched x es).touched y []) := by
    intro x es v y hv
    rw [← cover_value]
    exact effectiveCover_iff.mpr ⟨v, y, by
      rw [touched_st_eq, touched_terrain_eq, meanVelocity_strain _ hl, hv], rfl, rfl⟩
  cases fl with
  | radBasic sigma e =>
    have := radiation_value hl (sigma := sigma) (lp := 30.0) (width := width) (q := q) (by norm_num)
      (epsilon := pure e) (eps := fun _ _ => (e, e)) w (fun _ _ _ => e)
      (fun x es v y tc _ _ _ => ⟨x, es, rfl⟩)
    rw [Flux.compute, this]
    constructor
    · rintro ⟨v, x, tc, a, b, c, d, f, g⟩
      exact ⟨v, x, tc, sigma, e, a, b, c, d, f, rfl, g⟩
    · rintro ⟨v, x, tc, σ', e', a, b, c, d, f, he, g⟩
      simp only [emissivityOf, Option.some.injEq, Prod.mk.injEq] at he
      obtain ⟨rfl, rfl⟩ := he
      exact ⟨v, x, tc, a, b, c, d, f, g⟩
  | radTwoEmi sigma e1 e2 =>
    have := radiation_value hl (sigma := sigma) (lp := 30.0) (width := width) (q := q) (by norm_num)
      (epsilon := do
        let f ← effectiveCover m
        return f * e1 + (1.0 - f) * e2) (eps := fun _ _ => (e2, e1)) w (fun f _ _ => mix f e1 e2)
      (fun x es v y tc hv _ _ => ⟨y, es, by
        rw [PyM.bind_of_ok (cov x es v y hv), PyM.pure_apply, World.touched_touched, List.append_nil]
        unfold mix
        norm_num⟩)
    rw [Flux.compute, this]
    constructor
    · rintro ⟨v, x, tc, a, b, c, d, f, g⟩
      exact ⟨v, x, tc, sigma, _, a, b, c, d, f, rfl, g⟩
    · rintro ⟨v, x, tc, σ', e', a, b, c, d, f, he, g⟩
      simp only [emissivityOf, Option.some.injEq, Prod.mk.injEq] at he
      obtain ⟨rfl, rfl⟩ := he
      exact ⟨v, x, tc, a, b, c, d, f, g⟩
  | radCont sigma =>
    have := radiation_value hl (sigma := sigma) (lp := 0.1) (width := width) (q := q) (by norm_num)
      (epsilon := do
        let f ← effectiveCover m
        let tc ← crustTemperature m
        let tm ← moltenTemperature m
        return f * emissivityCont tc + (1.0 - f) * emissivityCont tm)
      (eps := fun tc tm => (emissivityCont tm, emissivityCont tc)) w
      (fun f tc tm => mix f (quadraticEmissivity tc) (quadraticEmissivity tm))
      (fun x es v y tc hv htc _ => ⟨y, es, by
        rw [PyM.bind_of_ok (cov x es v y hv), World.touched_touched, List.append_nil,
          PyM.bind_of_ok (crustTemperature_iff.mpr ⟨by rw [touched_st_eq, crust_strain, htc], rfl⟩),
          PyM.bind_of_ok (moltenTemperature_iff.mpr ⟨rfl, rfl⟩), PyM.pure_apply, cont_law, cont_law,
          touched_st_eq, molten_strain]
        unfold mix
        norm_num⟩)
    rw [Flux.compute, this]
    constructor
    · rintro ⟨v, x, tc, a, b, c, d, f, g⟩
      exact ⟨v, x, tc, sigma, _, a, b, c, d, f, rfl, g⟩
    · rintro ⟨v, x, tc, σ', e', a, b, c, d, f, he, g⟩
      simp only [emissivityOf, Option.some.injEq, Prod.mk.injEq] at he
      obtain ⟨rfl, rfl⟩ := he
      exact ⟨v, x, tc, a, b, c, d, f, g⟩
  | radLin sigma =>
    have := radiation_value hl (sigma := sigma) (lp := 0.1) (width := width) (q := q) (by norm_num)
      (epsilon := do
        let te ← effectiveRadiationTemperature m
        return emissivityLin te)
      (eps := fun tc tm => (emissivityLin tm, emissivityLin tc)) w
      (fun f tc tm => linearEmissivity (radiantExchange f tc tm m.air.temp ^ (1 / 4 : ℝ)))
      (fun x es v y tc hv htc hB => ⟨_, _, by
        rw [PyM.bind_of_ok (effRad_iff.mpr ⟨v, y, tc, by
            rw [touched_st_eq, touched_terrain_eq, meanVelocity_strain _ hl, hv],
            by rw [touched_st_eq, crust_strain, htc],
            by rw [cover_value]; exact effectiveRadiationFormula_iff.mpr ⟨hB, rfl⟩, rfl⟩),
          PyM.pure_apply, lin_law, World.touched_touched]
        rfl⟩)
    rw [Flux.compute, this]
    constructor
    · rintro ⟨v, x, tc, a, b, c, d, f, g⟩
      exact ⟨v, x, tc, sigma, _, a, b, c, d, f, rfl, g⟩
    · rintro ⟨v, x, tc, σ', e', a, b, c, d, f, he, g⟩
      simp only [emissivityOf, Option.some.injEq, Prod.mk.injEq] at he
      obtain ⟨rfl, rfl⟩ := he
      exact ⟨v, x, tc, a, b, c, d, f, g⟩
  | conduction baseT pct =>
    simp only [Flux.compute, FluxIs, core_eq]
    rw [div_of_ne (by norm_num : (100.0 : ℝ) ≠ 0), ok_bind]
    constructor
    · rintro ⟨w', h⟩
      rw [Prod.mk.injEq] at h
      obtain ⟨k, hk, h1⟩ := bind_ok_iff.mp h.1
      obtain ⟨h2, rfl⟩ := div_ok_iff.mp hk
      rw [pure_ok_iff] at h1
      refine ⟨fun h3 => h2 ?_, ?_⟩
      · rw [div_mul_eq_mul_div, h3, zero_div]
      · rw [← h1, npow_real]; norm_num
    · rintro ⟨h1, rfl⟩
      refine ⟨w, ?_⟩
      rw [div_of_ne, ok_bind, npow_real]
      · simp only [pure_eq_ok]; norm_num
      · intro h; apply h1
        rw [div_mul_eq_mul_div, div_eq_zero_iff] at h
        rcases h with h | h
        · exact h
        · norm_num at h
  | rain rate rho lv =>
    simp only [Flux.compute, FluxIs, core_eq, PyM.pure_apply, Prod.mk.injEq, Except.ok.injEq]
    constructor
    · rintro ⟨w', h, _⟩; exact h.symm
    · rintro rfl; exact ⟨w, rfl, rfl⟩
  | viscous =>
    simp only [Flux.compute, FluxIs, core_eq]
    constructor
    · rintro ⟨w', h⟩
      rw [PyM.bind_of_ok (PyM.get_apply w)] at h
      obtain ⟨visc, w1, h1, ha⟩ := PyM.bind_eq_ok.mp h
      obtain ⟨k1, rfl⟩ := PyM.lift_eq_ok.mp h1
      obtain ⟨v, w2, h2, hb⟩ := PyM.bind_eq_ok.mp ha
      obtain ⟨x, k2, rfl⟩ := meanVelocityM_ok h2
      obtain ⟨k, w3, h3, hc⟩ := PyM.bind_eq_ok.mp hb
      obtain ⟨k3, rfl⟩ := PyM.lift_eq_ok.mp h3
      obtain ⟨h4, rfl⟩ := div_ok_iff.mp k3
      rw [PyM.pure_apply, Prod.mk.injEq, Except.ok.injEq] at hc
      exact ⟨visc, v, x, k1, k2, h4, hc.1.symm⟩
    · rintro ⟨visc, v, x, h1, h2, h3, rfl⟩
      refine ⟨{ w with st := { w.st with strain := x } }, ?_⟩
      rw [PyM.bind_of_ok (PyM.get_apply w), lift_bind h1, PyM.bind_of_ok (meanVelocityM_forward h2),
        lift_bind (div_of_ne h3), PyM.pure_apply, npow_real]
  | convection =>
    simp only [Flux.compute, FluxIs, core_eq]
    constructor
    · rintro ⟨w', h⟩
      obtain ⟨tc, w1, h1, ha⟩ := PyM.bind_eq_ok.mp h
      obtain ⟨k1, rfl⟩ := crustTemperature_iff.mp h1
      obtain ⟨f, w2, h2, hb⟩ := PyM.bind_eq_ok.mp ha
      obtain ⟨v, x, hv, rfl, rfl⟩ := effectiveCover_iff.mp h2
      obtain ⟨tm, w3, h3, hc⟩ := PyM.bind_eq_ok.mp hb
      obtain ⟨rfl, rfl⟩ := moltenTemperature_iff.mp h3
      obtain ⟨t, w4, h4, hd⟩ := PyM.bind_eq_ok.mp hc
      obtain ⟨k4, rfl⟩ := PyM.lift_eq_ok.mp h4
      rw [log_step, log_step, log_step, PyM.pure_apply, Prod.mk.injEq, Except.ok.injEq] at hd
      rw [cover_value] at k4
      obtain ⟨a, b, c, rfl⟩ := characteristicFormula_iff.mp k4
      exact ⟨v, x, tc, hv, k1, a, b, c, hd.1.symm⟩
    · rintro ⟨v, x, tc, hv, h1, a, b, c, rfl⟩
      refine ⟨w.touched x [("characteristic_surface_temperature",
          .num (convectiveTemperature (coverLaw m.cover w.st.pos v) tc (m.lava.moltenTemperature w.st))),
        ("effective_temperature_snyder", .num 0.0), ("flowgofluxsnyderheat", .num 0.0)], ?_⟩
      rw [PyM.bind_of_ok (crustTemperature_iff.mpr ⟨h1, rfl⟩),
        PyM.bind_of_ok (effectiveCover_iff.mpr ⟨v, x, hv, rfl, rfl⟩),
        PyM.bind_of_ok (moltenTemperature_iff (w := w.touched x []) (t := m.lava.moltenTemperature w.st).mpr
          ⟨rfl, rfl⟩), cover_value,
        lift_bind (characteristicFormula_iff.mpr ⟨a, b, c, rfl⟩), log_step, log_step, log_step, PyM.pure_apply]
      rfl
  | snyder =>
    simp only [Flux.compute, FluxIs, core_eq]
    have hI : ¬ IsInt (4.85 : ℝ) := not_isInt_of_between 4 (by norm_num) (by norm_num)
    have e : ∀ f tc tm : ℝ, f * tc + (1.0 - f) * tm = mix f tc tm := by
      intro f tc tm; unfold mix; norm_num
    constructor
    · rintro ⟨w', h⟩
      obtain ⟨tc, w1, h1, ha⟩ := PyM.bind_eq_ok.mp h
      obtain ⟨k1, rfl⟩ := crustTemperature_iff.mp h1
      obtain ⟨f, w2, h2, hb⟩ := PyM.bind_eq_ok.mp ha
      obtain ⟨v, x, hv, rfl, rfl⟩ := effectiveCover_iff.mp h2
      obtain ⟨tm, w3, h3, hc⟩ := PyM.bind_eq_ok.mp hb
      obtain ⟨rfl, rfl⟩ := moltenTemperature_iff.mp h3
      rw [log_step] at hc
      obtain ⟨t, w4, h4, hd⟩ := PyM.bind_eq_ok.mp hc
      obtain ⟨k4, rfl⟩ := PyM.lift_eq_ok.mp h4
      rw [log_step, log_step, log_step, log_step, PyM.pure_apply, Prod.mk.injEq, Except.ok.injEq] at hd
      rw [cover_value, e] at k4
      obtain ⟨a, rfl⟩ := (realPow_frac (by norm_num) hI).mp k4
      refine ⟨v, x, tc, hv, k1, a, ?_⟩
      rw [← hd.1, touched_st_eq, molten_strain]
      generalize mix _ tc _ ^ (4.85 : ℝ) = z
      norm_num
      ring
    · rintro ⟨v, x, tc, hv, h1, a, rfl⟩
      refine ⟨w.touched x [("effective_temperature_snyder",
          .num (mix (coverLaw m.cover w.st.pos v) tc (m.lava.moltenTemperature w.st))),
        ("characteristic_surface_temperature", .num 0.0), ("effective_radiation_temperature", .num 0.0),
        ("flowgofluxforcedconvectionheat", .num 0.0), ("flowgofluxradiationheat", .num 0.0)], ?_⟩
      rw [PyM.bind_of_ok (crustTemperature_iff.mpr ⟨h1, rfl⟩),
        PyM.bind_of_ok (effectiveCover_iff.mpr ⟨v, x, hv, rfl, rfl⟩),
        PyM.bind_of_ok (moltenTemperature_iff (w := w.touched x []) (t := m.lava.moltenTemperature w.st).mpr
          ⟨rfl, rfl⟩), cover_value, log_step, e,
        lift_bind (pow_of_nonneg a (by norm_num)), log_step, log_step, log_step, log_step,
        PyM.pure_apply]
      generalize mix _ tc _ ^ (4.85 : ℝ) = z
      rw [Prod.mk.injEq, Except.ok.injEq]
      refine ⟨?_, rfl⟩
      norm_num
      ring

end PyFlowGo
