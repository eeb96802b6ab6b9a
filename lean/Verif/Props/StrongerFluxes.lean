import Verif.Props.Stronger
import Mathlib.Analysis.Convex.SpecificFunctions.Basic
import Mathlib.Analysis.Convex.SpecificFunctions.Pow
/-
  C121: which heat fluxes lose no more per cubic metre in a channel that drives the lava harder, and which channels do.
-/
set_option linter.unusedSectionVars false
namespace PyFlowGo
open Spec

/-- A decaying exponential is convex. -/
theorem exp_chord {a va vb : ℝ} (hvb : 0 < vb) (hle : vb ≤ va) :
    Real.exp (a * vb) ≤ vb / va * Real.exp (a * va) + (1 - vb / va) := by
  have hva : 0 < va := hvb.trans_le hle
  have ht1 : vb / va ≤ 1 := (div_le_one hva).mpr hle
  have := convexOn_exp.2 (Set.mem_univ (a * va)) (Set.mem_univ 0) (div_nonneg hvb.le hva.le) (sub_nonneg.mpr ht1) (by ring)
  simp only [smul_eq_mul, mul_zero, add_zero, Real.exp_zero, mul_one] at this
  rwa [show vb / va * (a * va) = a * vb by field_simp] at this

/-- The cover at a position, as a function of the velocity. -/
theorem cover_form (c : CoverModel ℝ) (h : CoverShrinks c) (x : ℝ) :
    ∃ a fc, a ≤ 0 ∧ 0 ≤ fc ∧ fc ≤ 1 ∧ ∀ v, coverLaw c x v = fc * Real.exp (a * v) := by
  cases c with
  | basic a fc => exact ⟨a, fc, h.1, h.2.1, h.2.2, fun _ => rfl⟩
  | bimodal d a1 a2 f1 f2 =>
    by_cases hx : x ≤ d
    · exact ⟨a1, f1, h.1.1, h.1.2.1, h.1.2.2, fun v => if_pos hx⟩
    · exact ⟨a2, f2, h.2.1, h.2.2.1, h.2.2.2, fun v => if_neg hx⟩

/-- What is lost per cubic metre. -/
theorem per_cubic_metre {c ha hb va vb da db : ℝ} (hc : 0 ≤ c) (h0 : 0 ≤ ha) (hvb : 0 < vb) (hle : vb ≤ va) (hdb : 0 < db) (hdd : db ≤ da)
    (hstar : vb / va * ha ≤ hb) : c * ha * (1 / (va * da)) ≤ c * hb * (1 / (vb * db)) := by
  have hva : 0 < va := hvb.trans_le hle
  have hda : 0 < da := hdb.trans_le hdd
  have h1 : ha * (1 / (va * da)) ≤ hb * (1 / (vb * db)) := by
    calc ha * (1 / (va * da)) ≤ ha * (1 / (va * db)) := by gcongr
      _ = (vb / va * ha) * (1 / (vb * db)) := by field_simp
      _ ≤ hb * (1 / (vb * db)) := by gcongr
  have := mul_le_mul_of_nonneg_left h1 hc
  linarith

section
variable {c : CoverModel ℝ} {x Tc Tm Ta va vb : ℝ} (hc : CoverShrinks c) (ha : 0 < Ta) (h1 : Ta ≤ Tc) (h2 : Tc ≤ Tm) (hvb : 0 < vb) (hle : vb ≤ va)
include hc ha h1 h2 hvb hle

theorem cover_range : 0 ≤ coverLaw c x va ∧ coverLaw c x va ≤ coverLaw c x vb ∧ coverLaw c x vb ≤ 1 := by
  obtain ⟨a, fc, ha0, hf0, hf1, e⟩ := cover_form c hc x
  rw [e, e]
  have hn : a * vb ≤ 0 := mul_nonpos_of_nonpos_of_nonneg ha0 hvb.le
  refine ⟨mul_nonneg hf0 (Real.exp_pos _).le, ?_, ?_⟩
  · have : a * va ≤ a * vb := mul_le_mul_of_nonpos_left hle ha0
    exact mul_le_mul_of_nonneg_left (Real.exp_le_exp.mpr this) hf0
  · calc fc * Real.exp (a * vb) ≤ fc * 1 := mul_le_mul_of_nonneg_left (Real.exp_le_one_iff.mpr hn) hf0
      _ ≤ 1 := by linarith

theorem exchange_star : 0 ≤ radiantExchange (coverLaw c x va) Tc Tm Ta ∧
    vb / va * radiantExchange (coverLaw c x va) Tc Tm Ta ≤ radiantExchange (coverLaw c x vb) Tc Tm Ta := by
  obtain ⟨r0, r1, r2⟩ := cover_range (x := x) hc ha h1 h2 hvb hle
  have hva : 0 < va := hvb.trans_le hle
  have p1 : Ta ^ 4 ≤ Tc ^ 4 := by gcongr
  have p2 : Tc ^ 4 ≤ Tm ^ 4 := by
    have : 0 ≤ Tc := by linarith
    gcongr
  refine ⟨?_, ?_⟩
  · unfold radiantExchange
    have : 0 ≤ 1 - coverLaw c x va := by linarith
    have : 0 ≤ Tc ^ 4 - Ta ^ 4 := by linarith
    have : 0 ≤ Tm ^ 4 - Ta ^ 4 := by linarith
    positivity
  · obtain ⟨a, fc, ha0, hf0, hf1, e⟩ := cover_form c hc x
    rw [e, e]
    unfold radiantExchange
    have hch := exp_chord (a := a) hvb hle
    have ht1 : vb / va ≤ 1 := (div_le_one hva).mpr hle
    generalize vb / va = t at *
    generalize Real.exp (a * va) = ea at *
    generalize Real.exp (a * vb) = eb at *
    have k1 : 0 ≤ fc * (Tm ^ 4 - Tc ^ 4) := mul_nonneg hf0 (by linarith)
    have k2 := mul_le_mul_of_nonneg_left hch k1
    have k3 : 0 ≤ (1 - t) * ((1 - fc) * (Tm ^ 4 - Ta ^ 4) + fc * (Tc ^ 4 - Ta ^ 4)) :=
      mul_nonneg (by linarith) (add_nonneg (mul_nonneg (by linarith) (by linarith)) (mul_nonneg hf0 (by linarith)))
    linarith

theorem convective_star (hair : Ta ≤ Tc ^ slippedExponent) :
    0 ≤ mix (coverLaw c x va) (Tc ^ (1.333 : ℝ)) (Tm ^ (1.333 : ℝ)) ∧ 0 ≤ convectiveTemperature (coverLaw c x va) Tc Tm - Ta ∧
    vb / va * (convectiveTemperature (coverLaw c x va) Tc Tm - Ta) ≤ convectiveTemperature (coverLaw c x vb) Tc Tm - Ta := by
  obtain ⟨r0, r1, r2⟩ := cover_range (x := x) hc ha h1 h2 hvb hle
  have hva : 0 < va := hvb.trans_le hle
  have hTc : 0 < Tc := by linarith
  have hp : Tc ^ (1.333 : ℝ) ≤ Tm ^ (1.333 : ℝ) := Real.rpow_le_rpow hTc.le h2 (by norm_num)
  have hp0 : 0 < Tc ^ (1.333 : ℝ) := Real.rpow_pos_of_pos hTc _
  have hslip : (Tc ^ (1.333 : ℝ)) ^ (0.75 : ℝ) = Tc ^ slippedExponent := by
    rw [← Real.rpow_mul hTc.le]; rfl
  have low : ∀ f, f ≤ 1 → Tc ^ (1.333 : ℝ) ≤ mix f (Tc ^ (1.333 : ℝ)) (Tm ^ (1.333 : ℝ)) := by
    intro f hf
    unfold mix
    nlinarith
  have lowT : ∀ f, f ≤ 1 → Ta ≤ convectiveTemperature f Tc Tm := by
    intro f hf
    unfold convectiveTemperature
    refine hair.trans ?_
    rw [← hslip]
    exact Real.rpow_le_rpow hp0.le (low f hf) (by norm_num)
  have hfa : coverLaw c x va ≤ 1 := by linarith
  refine ⟨hp0.le.trans (low _ hfa), by linarith [lowT _ hfa], ?_⟩
  obtain ⟨a, fc, ha0, hf0, hf1, e⟩ := cover_form c hc x
  rw [e] at hfa
  rw [e] at r2
  rw [e, e]
  have hch := exp_chord (a := a) hvb hle
  have ht1 : vb / va ≤ 1 := (div_le_one hva).mpr hle
  have ht0 : 0 ≤ vb / va := div_nonneg hvb.le hva.le
  have h0 := lowT fc hf1
  generalize vb / va = t at *
  generalize Real.exp (a * va) = ea at *
  generalize Real.exp (a * vb) = eb at *
  -- the mixture lies above its chord, the power is concave
  have hmix : t * mix (fc * ea) (Tc ^ (1.333 : ℝ)) (Tm ^ (1.333 : ℝ)) + (1 - t) * mix fc (Tc ^ (1.333 : ℝ)) (Tm ^ (1.333 : ℝ)) ≤
      mix (fc * eb) (Tc ^ (1.333 : ℝ)) (Tm ^ (1.333 : ℝ)) := by
    unfold mix
    have k1 : 0 ≤ fc * (Tm ^ (1.333 : ℝ) - Tc ^ (1.333 : ℝ)) := mul_nonneg hf0 (by linarith)
    have k2 := mul_le_mul_of_nonneg_left hch k1
    linarith
  have m0 : 0 ≤ mix (fc * ea) (Tc ^ (1.333 : ℝ)) (Tm ^ (1.333 : ℝ)) := hp0.le.trans (low _ hfa)
  have m1 : 0 ≤ mix fc (Tc ^ (1.333 : ℝ)) (Tm ^ (1.333 : ℝ)) := hp0.le.trans (low _ hf1)
  have hconc := (Real.concaveOn_rpow (p := 0.75) (by norm_num) (by norm_num)).2 (Set.mem_Ici.mpr m0) (Set.mem_Ici.mpr m1) ht0 (sub_nonneg.mpr ht1) (by ring)
  simp only [smul_eq_mul] at hconc
  have hmono : (t * mix (fc * ea) (Tc ^ (1.333 : ℝ)) (Tm ^ (1.333 : ℝ)) + (1 - t) * mix fc (Tc ^ (1.333 : ℝ)) (Tm ^ (1.333 : ℝ))) ^ (0.75 : ℝ) ≤
      mix (fc * eb) (Tc ^ (1.333 : ℝ)) (Tm ^ (1.333 : ℝ)) ^ (0.75 : ℝ) :=
    Real.rpow_le_rpow (add_nonneg (mul_nonneg ht0 m0) (mul_nonneg (by linarith) m1)) hmix (by norm_num)
  unfold convectiveTemperature at h0 ⊢
  have k3 : 0 ≤ (1 - t) * (mix fc (Tc ^ (1.333 : ℝ)) (Tm ^ (1.333 : ℝ)) ^ (0.75 : ℝ) - Ta) := mul_nonneg (by linarith) (by linarith)
  linarith
end

/-- **C121**, which fluxes. In a channel that is not shallower the following fluxes lose, per cubic metre of lava, no more heat where the lava is not
    slower: rain and conduction that cool the lava; and, if the crust cover shrinks with velocity and the air is not hotter than the crust
    nor the crust hotter than the molten surface, radiation with one emissivity, radiation with an emissivity of the crust not below that of the melt, and
    forced convection. The faster lava exposes more melt and loses more per square metre, but its surface is smaller per cubic metre carried. -/
theorem C121_fluxes (m : Models ℝ) (A B : Terrain ℝ) (R : ℝ → ℝ → ℝ → Prop) (hB : 0 < B.depth) (hAB : B.depth ≤ A.depth) :
    (∀ rate rho lv, 0 ≤ rate * rho * lv → LosesNoMore m A B R (.rain rate rho lv)) ∧
    (∀ base pct, 0 < pct → (∀ x t phi, R x t phi → base ≤ t) → LosesNoMore m A B R (.conduction base pct)) ∧
    (CoverShrinks m.cover → CrustBetween m R →
      (∀ sigma e, 0 ≤ sigma * e → LosesNoMore m A B R (.radBasic sigma e)) ∧
      (∀ sigma e1 e2, 0 ≤ sigma → 0 ≤ e2 → e2 ≤ e1 → LosesNoMore m A B R (.radTwoEmi sigma e1 e2)) ∧
      (0 ≤ m.air.convCoef → (∀ s Tc, R s.pos s.temp s.crystal → m.crust.temperature s = .ok Tc → m.air.temp ≤ Tc ^ slippedExponent) →
        LosesNoMore m A B R .convection)) := by
  have hA : 0 < A.depth := hB.trans_le hAB
  refine ⟨?_, ?_, fun hc hb => ⟨?_, ?_, ?_⟩⟩
  · intro rate rho lv h s va xa vb xb q _ _ _ h0 hle hq
    have hq : q = rate * rho * lv * (1 / (vb * B.depth)) := hq
    refine ⟨_, rfl, ?_⟩
    rw [hq]
    have hva := h0.trans_le hle
    gcongr
  · rintro base pct hp hbase s va xa vb xb q hR _ _ h0 hle ⟨_, rfl⟩
    refine ⟨_, ⟨(mul_pos hp hA).ne', rfl⟩, ?_⟩
    have hva := h0.trans_le hle
    have := hbase _ _ _ hR
    have : 0 ≤ s.temp - base := by linarith
    gcongr
  · rintro sigma e hs s va xa vb xb q hR hva hvb h0 hle ⟨v, x, Tc, sg, em, hv, hTc, k1, k2, k3, k4, rfl⟩
    rw [hv] at hvb
    cases hvb
    simp only [emissivityOf, Option.some.injEq, Prod.mk.injEq] at k4
    obtain ⟨rfl, rfl⟩ := k4
    obtain ⟨b1, b2, b3⟩ := hb s Tc hR hTc
    obtain ⟨e1, e2⟩ := exchange_star (x := s.pos) hc b1 b2 b3 h0 hle
    exact ⟨_, ⟨va, xa, Tc, sigma, e, hva, hTc, k1, k2, e1, rfl, rfl⟩, per_cubic_metre hs e1 h0 hle hB hAB e2⟩
  · rintro sigma ec em hs hem hle2 s va xa vb xb q hR hva hvb h0 hle ⟨v, x, Tc, sg, em', hv, hTc, k1, k2, k3, k4, rfl⟩
    rw [hv] at hvb
    cases hvb
    simp only [emissivityOf, Option.some.injEq, Prod.mk.injEq] at k4
    obtain ⟨rfl, rfl⟩ := k4
    obtain ⟨b1, b2, b3⟩ := hb s Tc hR hTc
    obtain ⟨e1, e2⟩ := exchange_star (x := s.pos) hc b1 b2 b3 h0 hle
    obtain ⟨r0, r1, r2⟩ := cover_range (x := s.pos) hc b1 b2 b3 h0 hle
    refine ⟨_, ⟨va, xa, Tc, sigma, _, hva, hTc, k1, k2, e1, rfl, rfl⟩, ?_⟩
    have m0 : ∀ f, 0 ≤ f → em ≤ mix f ec em := by
      intro f hf; unfold mix; nlinarith
    have m1 : mix (coverLaw m.cover s.pos va) ec em ≤ mix (coverLaw m.cover s.pos vb) ec em := by
      unfold mix; nlinarith
    have m2 : 0 ≤ mix (coverLaw m.cover s.pos va) ec em := hem.trans (m0 _ r0)
    have m3 : 0 ≤ mix (coverLaw m.cover s.pos vb) ec em := m2.trans m1
    have hva0 := h0.trans_le hle
    have := per_cubic_metre (c := sigma) (ha := mix (coverLaw m.cover s.pos va) ec em * radiantExchange (coverLaw m.cover s.pos va) Tc (coreTemperature m.lava s) m.air.temp)
      (hb := mix (coverLaw m.cover s.pos vb) ec em * radiantExchange (coverLaw m.cover s.pos vb) Tc (coreTemperature m.lava s) m.air.temp) hs (mul_nonneg m2 e1) h0 hle hB hAB
      (by
        calc vb / va * (mix (coverLaw m.cover s.pos va) ec em * radiantExchange (coverLaw m.cover s.pos va) Tc (coreTemperature m.lava s) m.air.temp)
            = mix (coverLaw m.cover s.pos va) ec em * (vb / va * radiantExchange (coverLaw m.cover s.pos va) Tc (coreTemperature m.lava s) m.air.temp) := by ring
          _ ≤ mix (coverLaw m.cover s.pos vb) ec em * radiantExchange (coverLaw m.cover s.pos vb) Tc (coreTemperature m.lava s) m.air.temp :=
            mul_le_mul m1 e2 (mul_nonneg (div_nonneg h0.le hva0.le) e1) m3)
    rw [← mul_assoc, ← mul_assoc] at this
    exact this
  · rintro hcoef hair s va xa vb xb q hR hva hvb h0 hle ⟨v, x, Tc, hv, hTc, k1, k2, k3, rfl⟩
    rw [hv] at hvb
    cases hvb
    obtain ⟨b1, b2, b3⟩ := hb s Tc hR hTc
    obtain ⟨e0, e1, e2⟩ := convective_star (x := s.pos) hc b1 b2 b3 h0 hle (hair s Tc hR hTc)
    exact ⟨_, ⟨va, xa, Tc, hva, hTc, k1, k2, e0, rfl⟩, per_cubic_metre hcoef e1 h0 hle hB hAB e2⟩

/-- **C121**, which channels. A channel that differs in its depth only and is deeper drives the lava harder; so does one with a stronger gravity and no
    other difference; so does one of the same depth and gravity whose ground is at every position between the slope of the other and a right angle. -/
theorem C121_channels (l : Lava ℝ) (B : Terrain ℝ) (R : ℝ → ℝ → ℝ → Prop) (hB : 0 < B.depth) :
    (∀ d, B.depth ≤ d → DrivesHarder l { B with depth := d } B R) ∧
    (∀ gr, 0 ≤ B.gravity → B.gravity ≤ gr → DrivesHarder l { B with gravity := gr } B R) ∧
    (∀ A : Terrain ℝ, A.depth = B.depth → A.gravity = B.gravity → 0 ≤ B.gravity → (∀ s, R s.pos s.temp s.crystal → 0 < l.density s) →
      (∀ x t phi, R x t phi → ∀ sl, B.slope x = .ok sl → 0 ≤ sl ∧ ∃ sl', A.slope x = .ok sl' ∧ sl ≤ sl' ∧ sl' ≤ Real.pi / 2) →
      DrivesHarder l A B R) := by
  have form : ∀ (T : Terrain ℝ) (s : FlowState ℝ) (b : ℝ), l.basalStress T s = .ok b ↔
      ∃ sl, T.slope s.pos = .ok sl ∧ b = T.depth * l.density s * T.gravity * Real.sin sl := by
    intro T s b
    unfold Lava.basalStress
    rw [bind_ok_iff]
    constructor
    · rintro ⟨sl, h1, h2⟩
      refine ⟨sl, h1, ?_⟩
      rw [pure_ok_iff] at h2
      exact h2.symm
    · rintro ⟨sl, h1, h2⟩
      refine ⟨sl, h1, ?_⟩
      rw [pure_ok_iff, h2]; rfl
  refine ⟨fun d hd => ⟨hB, hd, ?_⟩, fun gr h0 hg => ⟨hB, le_rfl, ?_⟩, fun A h1 h2 h0 hr hs => ⟨hB, h1.ge, ?_⟩⟩
  · intro s b _ hb hpos
    obtain ⟨sl, e1, rfl⟩ := (form _ _ _).mp hb
    refine ⟨_, (form _ _ _).mpr ⟨sl, e1, rfl⟩, ?_⟩
    have : 0 < l.density s * B.gravity * Real.sin sl := by
      have : 0 < B.depth * (l.density s * B.gravity * Real.sin sl) := by linarith
      exact pos_of_mul_pos_right this hB.le
    show B.depth * l.density s * B.gravity * Real.sin sl ≤ d * l.density s * B.gravity * Real.sin sl
    nlinarith
  · intro s b _ hb hpos
    obtain ⟨sl, e1, rfl⟩ := (form _ _ _).mp hb
    refine ⟨_, (form _ _ _).mpr ⟨sl, e1, rfl⟩, ?_⟩
    have : 0 < l.density s * Real.sin sl := by
      have : 0 < (B.depth * B.gravity) * (l.density s * Real.sin sl) := by linarith
      exact pos_of_mul_pos_right this (mul_nonneg hB.le h0)
    show B.depth * l.density s * B.gravity * Real.sin sl ≤ B.depth * l.density s * gr * Real.sin sl
    have := mul_le_mul_of_nonneg_left (mul_le_mul_of_nonneg_right hg this.le) hB.le
    linarith
  · intro s b hR hb hpos
    obtain ⟨sl, e1, rfl⟩ := (form _ _ _).mp hb
    obtain ⟨p0, sl', p1, p2, p3⟩ := hs _ _ _ hR sl e1
    refine ⟨_, (form _ _ _).mpr ⟨sl', p1, rfl⟩, ?_⟩
    have hsin : Real.sin sl ≤ Real.sin sl' := Real.sin_le_sin_of_le_of_le_pi_div_two (by linarith [Real.pi_pos]) p3 p2
    rw [h1, h2]
    have := hr s hR
    gcongr

end PyFlowGo
