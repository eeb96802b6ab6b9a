import Verif.Proofs.FluxValue
import Verif.Proofs.CellLemmas
import Verif.Proofs.ExampleRun
/-
  C39-C47: crust cover, crust temperature, heat fluxes and the heat budget.
-/
namespace PyFlowGo
open Spec

/-! ### C39 effective cover -/

/-- **C39**, the law. The effective cover is the published exponential of the mean velocity of the state. -/
theorem C39_cover_law (m : Models ℝ) (w : World ℝ) (f : ℝ) :
    (∃ w', effectiveCover m w = (.ok f, w')) ↔
      ∃ v x, m.lava.meanVelocity w.terrain w.st = .ok (v, x) ∧ f = coverLaw m.cover w.st.pos v := by
  constructor
  · rintro ⟨w', h⟩
    obtain ⟨v, x, h1, rfl, _⟩ := effectiveCover_iff.mp h
    exact ⟨v, x, h1, cover_value _ _ _⟩
  · rintro ⟨v, x, h1, rfl⟩
    exact ⟨_, effectiveCover_iff.mpr ⟨v, x, h1, (cover_value _ _ _).symm, rfl⟩⟩

/-- **C39**, basic model: with `alpha ≤ 0` and `fc ∈ [0,1]` the cover is a fraction not above `fc`; it is
    `fc` exactly when `alpha = 0` or the velocity is zero (if `fc > 0`); it decreases with velocity. -/
theorem C39_basic_is_fraction (a fc pos v : ℝ) (ha : a ≤ 0) (h0 : 0 ≤ fc) (h1 : fc ≤ 1) (hv : 0 ≤ v) :
    0 ≤ coverLaw (.basic a fc) pos v ∧ coverLaw (.basic a fc) pos v ≤ fc ∧ coverLaw (.basic a fc) pos v ≤ 1 ∧
      (0 < fc → (coverLaw (.basic a fc) pos v = fc ↔ a = 0 ∨ v = 0)) ∧
      (0 < fc → a < 0 → ∀ v', v < v' → coverLaw (.basic a fc) pos v' < coverLaw (.basic a fc) pos v) := by
  have he : Real.exp (a * v) ≤ 1 := Real.exp_le_one_iff.mpr (mul_nonpos_of_nonpos_of_nonneg ha hv)
  have hle : fc * Real.exp (a * v) ≤ fc := mul_le_of_le_one_right h0 he
  refine ⟨mul_nonneg h0 (Real.exp_pos _).le, hle, hle.trans h1, fun hf => ?_, fun hf ha' v' hvv => ?_⟩
  · show fc * Real.exp (a * v) = fc ↔ _
    rw [mul_eq_left₀ hf.ne', Real.exp_eq_one_iff, mul_eq_zero]
  · show fc * Real.exp (a * v') < fc * Real.exp (a * v)
    exact mul_lt_mul_of_pos_left (Real.exp_lt_exp.mpr (mul_lt_mul_of_neg_left hvv ha')) hf

/-- **C39**, bimodal model: the first pair of parameters applies up to and including the critical
    distance, the second strictly after it. -/
theorem C39_bimodal_switch (d a1 a2 f1 f2 pos v : ℝ) :
    coverLaw (.bimodal d a1 a2 f1 f2) pos v =
      if pos ≤ d then coverLaw (.basic a1 f1) pos v else coverLaw (.basic a2 f2) pos v := rfl

/-- **C39** through the API: in any state with non-negative velocity the effective cover computed is in
    [0,1], for either model with admissible parameters. -/
theorem C39_api_is_fraction (m : Models ℝ) (w w' : World ℝ) (f v x : ℝ)
    (hp : match m.cover with
      | .basic a fc => a ≤ 0 ∧ 0 ≤ fc ∧ fc ≤ 1
      | .bimodal _ a1 a2 f1 f2 => a1 ≤ 0 ∧ a2 ≤ 0 ∧ 0 ≤ f1 ∧ f1 ≤ 1 ∧ 0 ≤ f2 ∧ f2 ≤ 1)
    (hv : m.lava.meanVelocity w.terrain w.st = .ok (v, x)) (hv0 : 0 ≤ v)
    (h : effectiveCover m w = (.ok f, w')) : 0 ≤ f ∧ f ≤ 1 := by
  obtain ⟨v', x', h1, rfl⟩ := (C39_cover_law m w f).mp ⟨w', h⟩
  rw [hv] at h1
  injection h1 with h1
  obtain ⟨rfl, rfl⟩ := Prod.mk.injEq _ _ _ _ |>.mp h1
  cases hc : m.cover with
  | basic a fc =>
    rw [hc] at hp
    have := C39_basic_is_fraction a fc w.st.pos v hp.1 hp.2.1 hp.2.2 hv0
    exact ⟨this.1, this.2.2.1⟩
  | bimodal d a1 a2 f1 f2 =>
    rw [hc] at hp
    obtain ⟨p1, p2, p3, p4, p5, p6⟩ := hp
    have A := C39_basic_is_fraction a1 f1 w.st.pos v p1 p3 p4 hv0
    have B := C39_basic_is_fraction a2 f2 w.st.pos v p2 p5 p6 hv0
    rw [C39_bimodal_switch]
    split
    · exact ⟨A.1, A.2.2.1⟩
    · exact ⟨B.1, B.2.2.1⟩

example : ∃ f w', effectiveCover exModels exWorld = (.ok f, w') ∧ 0 ≤ f ∧ f ≤ 1 := by
  obtain ⟨w', h⟩ := (C39_cover_law exModels exWorld _).mpr ⟨1, 3, exVelocity 0, rfl⟩
  refine ⟨_, w', h, C39_api_is_fraction exModels exWorld w' _ 1 3 ?_ (exVelocity 0) (by norm_num) h⟩
  exact ⟨le_rfl, by norm_num, le_rfl⟩

/-! ### C40 crust temperature -/

/-- **C40**. The Hon model: defined exactly for positive times; the published law. -/
theorem C40_hon_law (s : FlowState ℝ) (T : ℝ) :
    (CrustModel.hon : CrustModel ℝ).temperature s = .ok T ↔
      0 < s.time ∧ T = 303 + 273.15 - 140 * Real.logb 10 (s.time / 3600) := by
  unfold CrustModel.temperature honTemperature
  dsimp only
  rw [div_of_ne (by norm_num), ok_bind, log10_real]
  by_cases h : 0 < s.time
  · have hp : 0 < s.time / 3600.0 := by positivity
    rw [if_neg (not_le.mpr hp), ok_bind, pure_ok_iff]
    have : (3600.0 : ℝ) = 3600 := by norm_num
    rw [this]
    constructor
    · intro e; exact ⟨h, by rw [← e]; norm_num; ring⟩
    · rintro ⟨_, rfl⟩; norm_num; ring
  · have hp : s.time / 3600.0 ≤ 0 := div_nonpos_of_nonpos_of_nonneg (not_lt.mp h) (by norm_num)
    rw [if_pos hp, error_bind]
    constructor
    · intro e; cases e
    · intro e; exact absurd e.1 h

/-- **C40**. Otherwise the call raises a math domain error (a run whose clock starts at 0 cannot make
    its first step). -/
theorem C40_hon_error (s : FlowState ℝ) (h : s.time ≤ 0) :
    (CrustModel.hon : CrustModel ℝ).temperature s = .error .mathDomain := by
  unfold CrustModel.temperature honTemperature
  dsimp only
  rw [div_of_ne (by norm_num), ok_bind, log10_real,
    if_pos (div_nonpos_of_nonpos_of_nonneg h (by norm_num)), error_bind]

/-- **C40**. Strictly decreasing in time, and 576.15 K after one hour. -/
theorem C40_hon_decreasing (s s' : FlowState ℝ) (T T' : ℝ)
    (h : (CrustModel.hon : CrustModel ℝ).temperature s = .ok T)
    (h' : (CrustModel.hon : CrustModel ℝ).temperature s' = .ok T') :
    (s.time < s'.time → T' < T) ∧ (s.time = 3600 → T = 576.15) := by
  obtain ⟨p, rfl⟩ := (C40_hon_law s T).mp h
  obtain ⟨p', rfl⟩ := (C40_hon_law s' T').mp h'
  constructor
  · intro hlt
    have : Real.logb 10 (s.time / 3600) < Real.logb 10 (s'.time / 3600) :=
      Real.logb_lt_logb (by norm_num) (by positivity) (by linarith)
    linarith
  · intro e
    rw [e, div_self (by norm_num), Real.logb_one]
    norm_num

/-- **C40**. The bimodal model is the Hon law up to and including the critical distance and a constant
    afterwards; the constant model and the field model without a file are constant. -/
theorem C40_other_models (s : FlowState ℝ) (d t2 t : ℝ) :
    (s.pos ≤ d → (CrustModel.honBimodal d t2).temperature s = (CrustModel.hon : CrustModel ℝ).temperature s) ∧
    (d < s.pos → (CrustModel.honBimodal d t2).temperature s = .ok t2) ∧
    (CrustModel.constant t).temperature s = .ok t ∧ (CrustModel.field t none).temperature s = .ok t ∧
    (CrustModel.hr2001 : CrustModel ℝ).temperature s = .ok (s.temp - 712) := by
  refine ⟨fun h => ?_, fun h => ?_, rfl, rfl, ?_⟩
  · simp only [CrustModel.temperature]; rw [if_pos (by simpa using h)]
  · simp only [CrustModel.temperature]; rw [if_neg (by simpa using h)]
  · simp only [CrustModel.temperature]; norm_num

/-! ### C41 radiation -/

/-- The flux is one of the four radiative classes. -/
def Spec.IsRadiative (f : Flux ℝ) : Prop := ∃ c Tc Tm Ta p, emissivityOf c Tc Tm Ta f = some p

/-- **C41**. For every strain-independent lava and every radiative class, the flux computed is
    `σ·ε·(f(Tc⁴−Ta⁴)+(1−f)(Tm⁴−Ta⁴))·width` — the fourth root taken for the effective temperature and the
    fourth power cancel — and it can be computed exactly when the velocity and the crust temperature
    exist, both surface temperatures are non-zero (the logged spectral radiance divides by them) and the
    bracket is non-negative. -/
theorem C41_radiative_flux_law {m : Models ℝ} (hl : StrainIndependent m.lava) (fl : Flux ℝ)
    (hr : IsRadiative fl) (width depth q : ℝ) (w : World ℝ) :
    (∃ w', fl.compute m width depth w = (.ok q, w')) ↔
      ∃ v x Tc σ e, m.lava.meanVelocity w.terrain w.st = .ok (v, x) ∧ m.crust.temperature w.st = .ok Tc ∧
        Tc ≠ 0 ∧ coreTemperature m.lava w.st ≠ 0 ∧
        0 ≤ radiantExchange (coverLaw m.cover w.st.pos v) Tc (coreTemperature m.lava w.st) m.air.temp ∧
        emissivityOf (coverLaw m.cover w.st.pos v) Tc (coreTemperature m.lava w.st) m.air.temp fl = some (σ, e) ∧
        q = σ * e * radiantExchange (coverLaw m.cover w.st.pos v) Tc (coreTemperature m.lava w.st) m.air.temp *
          width := by
  obtain ⟨_, _, _, _, _, hr⟩ := hr
  rw [flux_value hl]
  cases fl <;> first | exact Iff.rfl | (simp [emissivityOf] at hr)

/-- **C41**. For any lava at all, the basic radiative class computes the same law from the velocity at
    the state it is given. -/
theorem C41_basic_law_any_lava (m : Models ℝ) (sigma e width depth q : ℝ) (w w' : World ℝ)
    (h : (Flux.radBasic sigma e).compute m width depth w = (.ok q, w')) :
    ∃ v x Tc, m.lava.meanVelocity w.terrain w.st = .ok (v, x) ∧ m.crust.temperature w.st = .ok Tc ∧
      q = sigma * e * radiantExchange (coverLaw m.cover w.st.pos v) Tc (coreTemperature m.lava w.st) m.air.temp *
        width := by
  rw [Flux.compute] at h
  obtain ⟨te, w1, e', w2, w3, h1, h2, h3, h4, rfl⟩ := radiationFlux_iff.mp h
  obtain ⟨v, x, tc, hv, htc, hte, rfl⟩ := effRad_iff.mp h1
  rw [cover_value] at hte
  obtain ⟨hB, rfl⟩ := effectiveRadiationFormula_iff.mp hte
  rw [PyM.pure_apply, Prod.mk.injEq, Except.ok.injEq] at h2
  obtain ⟨rfl, rfl⟩ := h2
  exact ⟨v, x, tc, hv, htc, by rw [core_eq, npow_real, quarter_fourth hB]⟩

theorem fourth_le {a b : ℝ} (ha : 0 ≤ a) (h : a ≤ b) : a ^ 4 ≤ b ^ 4 := pow_le_pow_left₀ ha h 4

/-- **C41**. The bracket is non-negative as soon as crust and molten surface are at least as hot as the
    air and the cover is a fraction; the flux is then non-negative for non-negative σ, ε, width. -/
theorem C41_nonneg (f Tc Tm Ta σ e width : ℝ) (h0 : 0 ≤ f) (h1 : f ≤ 1) (ha : 0 ≤ Ta) (hc : Ta ≤ Tc)
    (hm : Ta ≤ Tm) (hσ : 0 ≤ σ) (he : 0 ≤ e) (hw : 0 ≤ width) :
    0 ≤ radiantExchange f Tc Tm Ta ∧ 0 ≤ σ * e * radiantExchange f Tc Tm Ta * width := by
  have hB : 0 ≤ radiantExchange f Tc Tm Ta := by
    unfold radiantExchange
    have a := fourth_le ha hc
    have b := fourth_le ha hm
    have c : 0 ≤ f * (Tc ^ 4 - Ta ^ 4) := mul_nonneg h0 (by linarith)
    have d : 0 ≤ (1 - f) * (Tm ^ 4 - Ta ^ 4) := mul_nonneg (by linarith) (by linarith)
    linarith
  exact ⟨hB, mul_nonneg (mul_nonneg (mul_nonneg hσ he) hB) hw⟩

theorem exModels_strain : StrainIndependent exModels.lava := fun _ _ => rfl

/-- The example flow: crust at 500 K, core 1000 K, air 300 K, full cover. -/
example : ∃ w', (Flux.radBasic 1 1).compute exModels 2 1 exWorld =
    (.ok (1 * 1 * radiantExchange 1 500 1000 300 * 2), w') := by
  have hb : (0 : ℝ) ≤ radiantExchange 1 500 1000 300 := by norm_num [radiantExchange]
  refine (C41_radiative_flux_law exModels_strain _ ⟨0, 0, 0, 0, _, rfl⟩ 2 1 _ exWorld).mpr
    ⟨1, 3, 500, 1, 1, exVelocity 0, rfl, by norm_num, ?_, ?_, rfl, ?_⟩ <;>
  · have c1 : coverLaw exModels.cover exWorld.st.pos 1 = 1 := by
      simp [coverLaw, exModels]
    have c2 : coreTemperature exModels.lava exWorld.st = 1000 := by
      simp [coreTemperature, exModels, exLava, exWorld, newWorld, exState]
    have c3 : exModels.air.temp = 300 := rfl
    simp only [c1, c2, c3]
    try (first | exact hb | norm_num)

/-! ### C42 convection -/

theorem convective_between {f Tc Tm : ℝ} (h0 : 0 ≤ f) (h1 : f ≤ 1) (hc : 0 ≤ Tc) (hm : 0 ≤ Tm) :
    (min Tc Tm) ^ slippedExponent ≤ convectiveTemperature f Tc Tm ∧
      convectiveTemperature f Tc Tm ≤ (max Tc Tm) ^ slippedExponent := by
  have hmin : 0 ≤ min Tc Tm := le_min hc hm
  have hmax : 0 ≤ max Tc Tm := hc.trans (le_max_left _ _)
  have k : (0 : ℝ) ≤ 1.333 := by norm_num
  have a1 : min Tc Tm ^ (1.333 : ℝ) ≤ Tc ^ (1.333 : ℝ) := Real.rpow_le_rpow hmin (min_le_left _ _) k
  have a2 : min Tc Tm ^ (1.333 : ℝ) ≤ Tm ^ (1.333 : ℝ) := Real.rpow_le_rpow hmin (min_le_right _ _) k
  have b1 : Tc ^ (1.333 : ℝ) ≤ max Tc Tm ^ (1.333 : ℝ) := Real.rpow_le_rpow hc (le_max_left _ _) k
  have b2 : Tm ^ (1.333 : ℝ) ≤ max Tc Tm ^ (1.333 : ℝ) := Real.rpow_le_rpow hm (le_max_right _ _) k
  unfold slippedExponent convectiveTemperature mix
  rw [Real.rpow_mul hmin, Real.rpow_mul hmax]
  have p : 0 ≤ min Tc Tm ^ (1.333 : ℝ) := Real.rpow_nonneg hmin _
  constructor
  · apply Real.rpow_le_rpow p _ (by norm_num)
    nlinarith
  · apply Real.rpow_le_rpow _ _ (by norm_num)
    · have q1 := p.trans a1
      have q2 := p.trans a2
      nlinarith [mul_nonneg h0 q1, mul_nonneg (sub_nonneg.mpr h1) q2]
    · nlinarith

/-- **C42**. The convective flux is `h·(t − Tair)·width` with `t` the convective surface temperature; with
    cover in [0,1], `t` lies between the 0.99975th powers of the smaller and larger surface temperature. -/
theorem C42_convective_flux {m : Models ℝ} (hl : StrainIndependent m.lava) (width depth q : ℝ) (w : World ℝ)
    (w' : World ℝ) (h : (Flux.convection : Flux ℝ).compute m width depth w = (.ok q, w')) :
    ∃ v x Tc t, m.lava.meanVelocity w.terrain w.st = .ok (v, x) ∧ m.crust.temperature w.st = .ok Tc ∧
      q = m.air.ch * m.air.rho * m.air.cp * m.air.windSpeed * (t - m.air.temp) * width ∧
      (0 ≤ coverLaw m.cover w.st.pos v → coverLaw m.cover w.st.pos v ≤ 1 →
        (min Tc (coreTemperature m.lava w.st)) ^ (0.99975 : ℝ) ≤ t ∧
        t ≤ (max Tc (coreTemperature m.lava w.st)) ^ (0.99975 : ℝ)) := by
  obtain ⟨v, x, Tc, hv, hc, a, b, c, rfl⟩ := (flux_value hl _ width depth q w).mp ⟨w', h⟩
  refine ⟨v, x, Tc, _, hv, hc, rfl, fun h0 h1 => ?_⟩
  have := convective_between h0 h1 a b
  rwa [show slippedExponent = 0.99975 by unfold slippedExponent; norm_num] at this

/-- **C42**, the expected property fails: a surface at a uniform temperature `T > 1` K is given a strictly
    smaller convective temperature, `T^0.99975`, whatever the cover. -/
theorem C42_uniform_surface_is_cooled (f T : ℝ) (hT : 1 < T) :
    characteristicFormula f T T = .ok (T ^ (0.99975 : ℝ)) ∧ T ^ (0.99975 : ℝ) < T := by
  have h0 : 0 ≤ T := by linarith
  have e : mix f (T ^ (1.333 : ℝ)) (T ^ (1.333 : ℝ)) = T ^ (1.333 : ℝ) := by unfold mix; ring
  constructor
  · rw [characteristicFormula_iff]
    refine ⟨h0, h0, ?_, ?_⟩
    · rw [e]; exact Real.rpow_nonneg h0 _
    · unfold convectiveTemperature
      rw [e, ← Real.rpow_mul h0]; norm_num
  · conv_rhs => rw [← Real.rpow_one T]
    exact Real.rpow_lt_rpow_of_exponent_lt hT (by norm_num)

/-- **C42** through the log: with the example flow and a uniform surface at 1000 K the logged
    characteristic surface temperature is below 1000 K. -/
theorem C42_uniform_surface_flux (m : Models ℝ) (w : World ℝ) (v x T width depth : ℝ)
    (hl : StrainIndependent m.lava) (hT : 1 < T)
    (hv : m.lava.meanVelocity w.terrain w.st = .ok (v, x)) (hc : m.crust.temperature w.st = .ok T)
    (hm : coreTemperature m.lava w.st = T) :
    ∃ w', (Flux.convection : Flux ℝ).compute m width depth w =
      (.ok (m.air.convCoef * (T ^ (0.99975 : ℝ) - m.air.temp) * width), w') := by
  refine (flux_value hl _ width depth _ w).mpr ⟨v, x, T, hv, hc, by linarith, by linarith, ?_, ?_⟩
  · have := (characteristicFormula_iff.mp (C42_uniform_surface_is_cooled (coverLaw m.cover w.st.pos v) T hT).1)
    rw [hm]; exact this.2.2.1
  · have := (characteristicFormula_iff.mp (C42_uniform_surface_is_cooled (coverLaw m.cover w.st.pos v) T hT).1)
    rw [hm, ← this.2.2.2]

/-! ### C43 conduction -/

/-- **C43**. The conductive flux, for every lava: the law, and the exact failure condition. -/
theorem C43_conductive_flux (m : Models ℝ) (baseT pct width depth q : ℝ) (w : World ℝ) :
    (∃ w', (Flux.conduction baseT pct).compute m width depth w = (.ok q, w')) ↔
      pct * depth ≠ 0 ∧ q = (1.929 - 1.554 * m.lava.vesicleFraction w.st) ^ 2 *
        ((w.st.temp - baseT) / (pct / 100 * depth)) * width := by
  simp only [Flux.compute]
  rw [div_of_ne (by norm_num : (100.0 : ℝ) ≠ 0), ok_bind]
  constructor
  · rintro ⟨w', h⟩
    rw [Prod.mk.injEq] at h
    obtain ⟨k, hk, h1⟩ := bind_ok_iff.mp h.1
    obtain ⟨h2, rfl⟩ := div_ok_iff.mp hk
    rw [pure_ok_iff] at h1
    refine ⟨fun h3 => h2 ?_, ?_⟩
    · rw [div_mul_eq_mul_div, h3, zero_div]
    · rw [← h1, npow_real]; norm_num
  · rintro ⟨h1, rfl⟩
    refine ⟨w, ?_⟩
    rw [div_of_ne, ok_bind, npow_real]
    · simp only [pure_eq_ok]; norm_num
    · intro h; apply h1
      rw [div_mul_eq_mul_div, div_eq_zero_iff] at h
      rcases h with h | h
      · exact h
      · norm_num at h

/-- **C43**. When it fails it raises ZeroDivisionError. -/
theorem C43_conductive_error (m : Models ℝ) (baseT pct width depth : ℝ) (w : World ℝ) (h : pct * depth = 0) :
    (Flux.conduction baseT pct).compute m width depth w = (.error .zeroDiv, w) := by
  simp only [Flux.compute]
  rw [div_of_ne (by norm_num : (100.0 : ℝ) ≠ 0), ok_bind]
  have : pct / 100.0 * depth = 0 := by rw [div_mul_eq_mul_div, h, zero_div]
  rw [div_error_iff.mpr ⟨this, rfl⟩, error_bind]

/-- **C43**. Sign: non-negative when the core is at least as hot as the base, non-positive otherwise
    (positive percentage, depth and width); doubling the depth halves it. -/
theorem C43_sign_and_scaling (m : Models ℝ) (baseT pct width depth q : ℝ) (w w' : World ℝ)
    (hp : 0 < pct) (hd : 0 < depth) (hw : 0 < width)
    (h : (Flux.conduction baseT pct).compute m width depth w = (.ok q, w')) :
    (baseT ≤ w.st.temp → 0 ≤ q) ∧ (w.st.temp ≤ baseT → q ≤ 0) ∧
      (baseT < w.st.temp → m.lava.vesicleFraction w.st ≤ 1 → 0 < q) ∧
      ∀ c : ℝ, 0 < c → ∃ w'', (Flux.conduction baseT pct).compute m width (c * depth) w = (.ok (q / c), w'') := by
  obtain ⟨h1, rfl⟩ := (C43_conductive_flux m baseT pct width depth q w).mp ⟨w', h⟩
  have hk : 0 ≤ (1.929 - 1.554 * m.lava.vesicleFraction w.st) ^ 2 := sq_nonneg _
  have hz : 0 < pct / 100 * depth := by positivity
  refine ⟨fun h => ?_, fun h => ?_, fun h hv => ?_, fun c hc => ?_⟩
  · exact mul_nonneg (mul_nonneg hk (div_nonneg (by linarith) hz.le)) hw.le
  · have : (w.st.temp - baseT) / (pct / 100 * depth) ≤ 0 := div_nonpos_of_nonpos_of_nonneg (by linarith) hz.le
    exact mul_nonpos_of_nonpos_of_nonneg (mul_nonpos_of_nonneg_of_nonpos hk this) hw.le
  · have : 0 < (1.929 - 1.554 * m.lava.vesicleFraction w.st) ^ 2 := by
      have : 0 < 1.929 - 1.554 * m.lava.vesicleFraction w.st := by linarith
      positivity
    exact mul_pos (mul_pos this (div_pos (by linarith) hz)) hw
  · refine (C43_conductive_flux m baseT pct width (c * depth) _ w).mpr ⟨?_, ?_⟩
    · have := mul_ne_zero hc.ne' h1
      intro e; apply this; linarith
    · have : pct / 100 * (c * depth) = (pct / 100 * depth) * c := by ring
      rw [this, ← div_div]
      ring

example : ∃ w', (Flux.conduction 300 19).compute exModels 2 1 exWorld =
    (.ok ((1.929 - 1.554 * 0) ^ 2 * ((1000 - 300) / (19 / 100 * 1)) * 2), w') :=
  (C43_conductive_flux exModels 300 19 2 1 _ exWorld).mpr ⟨by norm_num, by
    simp [exWorld, newWorld, exState, exModels, exLava, Lava.vesicleFraction, VesicleModel.fraction]⟩

/-! ### C44 linearity in width -/

/-- **C44**. For every lava (also strain-dependent ones), every flux class and every state: if the flux
    for a width is `q`, then for `a` times that width the computation succeeds too, gives `a·q`, and
    leaves the lava state and the terrain in exactly the same condition. -/
theorem C44_linear_in_width (m : Models ℝ) (fl : Flux ℝ) (a width depth q : ℝ) (w w' : World ℝ)
    (h : fl.compute m width depth w = (.ok q, w')) :
    ∃ w'', fl.compute m (a * width) depth w = (.ok (a * q), w'') ∧ w''.st = w'.st ∧ w''.terrain = w'.terrain := by
  have rad : ∀ (sigma lp : ℝ) (epsilon : PyM (World ℝ) ℝ) (eps : ℝ → ℝ → ℝ × ℝ), lp ≠ 0 →
      radiationFlux m sigma epsilon lp eps width w = (.ok q, w') →
      ∃ w'', radiationFlux m sigma epsilon lp eps (a * width) w = (.ok (a * q), w'') ∧ w''.st = w'.st ∧
        w''.terrain = w'.terrain := by
    intro sigma lp epsilon eps hlp h
    obtain ⟨te, w1, e, w2, w3, h1, h2, h3, h4, rfl⟩ := radiationFlux_iff.mp h
    obtain ⟨v, x, tc, r, hv, htc, hr, rfl⟩ := spectral_iff.mp h4
    obtain ⟨r', hr'⟩ := (spectralFormula_ok_iff (width := a * width) hlp).mpr
      ((spectralFormula_ok_iff hlp).mp ⟨r, hr⟩)
    exact ⟨_, radiationFlux_iff.mpr ⟨te, w1, e, w2, w3, h1, h2, h3,
      spectral_iff.mpr ⟨v, x, tc, r', hv, htc, hr', rfl⟩, by ring⟩, rfl, rfl⟩
  have lin : ∀ A B C D : ℝ, A * B * (C * D) * 1000.0 = C * (A * B * D * 1000.0) := by
    intro A B C D; generalize (1000.0 : ℝ) = k; ring
  have h30 : (30.0 : ℝ) ≠ 0 := by norm_num
  have h01 : (0.1 : ℝ) ≠ 0 := by norm_num
  cases fl with
  | radBasic s e => exact rad _ 30.0 _ _ h30 h
  | radTwoEmi s e1 e2 => exact rad _ 30.0 _ _ h30 h
  | radCont s => exact rad _ 0.1 _ _ h01 h
  | radLin s => exact rad _ 0.1 _ _ h01 h
  | conduction b p =>
    have hw : w' = w := by simp only [Flux.compute, Prod.mk.injEq] at h; exact h.2.symm
    subst hw
    obtain ⟨h1, hq⟩ := (C43_conductive_flux m b p width depth q _).mp ⟨_, h⟩
    obtain ⟨w2, h2⟩ := (C43_conductive_flux m b p (a * width) depth (a * q) w').mpr ⟨h1, by rw [hq, ← mul_assoc, mul_comm a, mul_assoc]⟩
    refine ⟨w2, h2, ?_, ?_⟩ <;>
    · simp only [Flux.compute, Prod.mk.injEq] at h2; rw [← h2.2]
  | convection =>
    simp only [Flux.compute] at h ⊢
    obtain ⟨tc, w1, h1, ha⟩ := PyM.bind_eq_ok.mp h
    obtain ⟨f, w2, h2, hb⟩ := PyM.bind_eq_ok.mp ha
    obtain ⟨tm, w3, h3, hc⟩ := PyM.bind_eq_ok.mp hb
    obtain ⟨t, w4, h4, hd⟩ := PyM.bind_eq_ok.mp hc
    obtain ⟨_, w5, h5, he⟩ := PyM.bind_eq_ok.mp hd
    obtain ⟨_, w6, h6, hf⟩ := PyM.bind_eq_ok.mp he
    obtain ⟨_, w7, h7, hg⟩ := PyM.bind_eq_ok.mp hf
    rw [PyM.pure_apply, Prod.mk.injEq, Except.ok.injEq] at hg
    obtain ⟨rfl, rfl⟩ := hg
    refine ⟨w7, ?_, rfl, rfl⟩
    rw [PyM.bind_of_ok h1, PyM.bind_of_ok h2, PyM.bind_of_ok h3, PyM.bind_of_ok h4, PyM.bind_of_ok h5,
      PyM.bind_of_ok h6, PyM.bind_of_ok h7, PyM.pure_apply, Prod.mk.injEq, Except.ok.injEq]
    exact ⟨by ring, rfl⟩
  | rain r d l =>
    simp only [Flux.compute, PyM.pure_apply, Prod.mk.injEq, Except.ok.injEq] at h ⊢
    obtain ⟨rfl, rfl⟩ := h
    exact ⟨w, ⟨by ring, rfl⟩, rfl, rfl⟩
  | viscous =>
    simp only [Flux.compute] at h ⊢
    obtain ⟨w0, w1, h1, ha⟩ := PyM.bind_eq_ok.mp h
    obtain ⟨f, w2, h2, hb⟩ := PyM.bind_eq_ok.mp ha
    obtain ⟨tm, w3, h3, hc⟩ := PyM.bind_eq_ok.mp hb
    obtain ⟨t, w4, h4, hd⟩ := PyM.bind_eq_ok.mp hc
    rw [PyM.pure_apply, Prod.mk.injEq, Except.ok.injEq] at hd
    obtain ⟨rfl, rfl⟩ := hd
    refine ⟨w4, ?_, rfl, rfl⟩
    rw [PyM.bind_of_ok h1, PyM.bind_of_ok h2, PyM.bind_of_ok h3, PyM.bind_of_ok h4, PyM.pure_apply,
      Prod.mk.injEq, Except.ok.injEq]
    exact ⟨by ring, rfl⟩
  | snyder =>
    simp only [Flux.compute] at h ⊢
    obtain ⟨tc, w1, h1, ha⟩ := PyM.bind_eq_ok.mp h
    obtain ⟨f, w2, h2, hb⟩ := PyM.bind_eq_ok.mp ha
    obtain ⟨tm, w3, h3, hc⟩ := PyM.bind_eq_ok.mp hb
    obtain ⟨_, w4, h4, hd⟩ := PyM.bind_eq_ok.mp hc
    obtain ⟨t, w5, h5, he⟩ := PyM.bind_eq_ok.mp hd
    obtain ⟨_, w6, h6, hf⟩ := PyM.bind_eq_ok.mp he
    obtain ⟨_, w7, h7, hg⟩ := PyM.bind_eq_ok.mp hf
    obtain ⟨_, w8, h8, hi⟩ := PyM.bind_eq_ok.mp hg
    obtain ⟨_, w9, h9, hj⟩ := PyM.bind_eq_ok.mp hi
    rw [PyM.pure_apply, Prod.mk.injEq, Except.ok.injEq] at hj
    obtain ⟨rfl, rfl⟩ := hj
    refine ⟨w9, ?_, rfl, rfl⟩
    rw [PyM.bind_of_ok h1, PyM.bind_of_ok h2, PyM.bind_of_ok h3, PyM.bind_of_ok h4, PyM.bind_of_ok h5,
      PyM.bind_of_ok h6, PyM.bind_of_ok h7, PyM.bind_of_ok h8, PyM.bind_of_ok h9, PyM.pure_apply,
      Prod.mk.injEq, Except.ok.injEq]
    exact ⟨lin _ _ _ _, rfl⟩

/-- **C44**. The rain flux is the same in every state and never fails. -/
theorem C44_rain_is_constant (m : Models ℝ) (rate rho lv width depth : ℝ) (w : World ℝ) :
    (Flux.rain rate rho lv).compute m width depth w = (.ok (rate * rho * lv * width), w) := rfl

end PyFlowGo
