import Verif.Props.Harsher
import Verif.Props.StrongerSensible
/-
  C122: harsher surroundings take more heat.
-/
set_option linter.unusedSectionVars false
namespace PyFlowGo
open Spec

/-- The cover is a fraction. -/
theorem cover_unit {c : CoverModel ℝ} (hc : CoverShrinks c) {x v : ℝ} (hv : 0 < v) : 0 ≤ coverLaw c x v ∧ coverLaw c x v ≤ 1 := by
  obtain ⟨h1, _, h3⟩ := cover_range (c := c) (x := x) (Tc := 1) (Tm := 1) (Ta := 1) hc one_pos le_rfl le_rfl hv le_rfl
  exact ⟨h1, h3⟩

/-- Less cover, a hotter crust and colder air radiate more. -/
theorem exchange_mono {f f' Tc Tc' Tm Ta Ta' : ℝ} (hf : f' ≤ f) (h0 : 0 ≤ f') (h1 : f ≤ 1) (hTa : 0 ≤ Ta') (ha : Ta' ≤ Ta) (hac : Ta ≤ Tc) (hc : Tc ≤ Tc')
    (hm : Tc' ≤ Tm) : 0 ≤ radiantExchange f Tc Tm Ta ∧ radiantExchange f Tc Tm Ta ≤ radiantExchange f' Tc' Tm Ta' := by
  have q0 : Ta' ^ 4 ≤ Ta ^ 4 := by gcongr
  have q1 : Ta ^ 4 ≤ Tc ^ 4 := by
    have : 0 ≤ Ta := by linarith
    gcongr
  have q2 : Tc ^ 4 ≤ Tc' ^ 4 := by
    have : 0 ≤ Tc := by linarith
    gcongr
  have q3 : Tc' ^ 4 ≤ Tm ^ 4 := by
    have : 0 ≤ Tc' := by linarith
    gcongr
  unfold radiantExchange
  generalize Ta' ^ 4 = a' at *
  generalize Ta ^ 4 = a at *
  generalize Tc' ^ 4 = c' at *
  generalize Tc ^ 4 = c at *
  generalize Tm ^ 4 = m at *
  have h0' : 0 ≤ f := by linarith
  refine ⟨add_nonneg (mul_nonneg h0' (by linarith)) (mul_nonneg (by linarith) (by linarith)), ?_⟩
  have k1 := mul_le_mul_of_nonneg_left q2 h0'
  have k2 := mul_le_mul_of_nonneg_right hf (sub_nonneg.mpr q3)
  nlinarith

/-- Less cover and a hotter crust make the surface warmer for the wind. -/
theorem convective_mono {f f' Tc Tc' Tm Ta Ta' : ℝ} (hf : f' ≤ f) (h0 : 0 ≤ f') (h1 : f ≤ 1) (hTc : 0 < Tc) (ha : Ta' ≤ Ta) (hair : Ta ≤ Tc ^ slippedExponent) (hc : Tc ≤ Tc')
    (hm : Tc' ≤ Tm) : 0 ≤ mix f (Tc ^ (1.333 : ℝ)) (Tm ^ (1.333 : ℝ)) ∧ 0 ≤ convectiveTemperature f Tc Tm - Ta ∧
      convectiveTemperature f Tc Tm - Ta ≤ convectiveTemperature f' Tc' Tm - Ta' := by
  have hslip : (Tc ^ (1.333 : ℝ)) ^ (0.75 : ℝ) = Tc ^ slippedExponent := by
    rw [← Real.rpow_mul hTc.le]; rfl
  have q1 : Tc ^ (1.333 : ℝ) ≤ Tc' ^ (1.333 : ℝ) := Real.rpow_le_rpow hTc.le hc (by norm_num)
  have q2 : Tc' ^ (1.333 : ℝ) ≤ Tm ^ (1.333 : ℝ) := Real.rpow_le_rpow (by linarith) hm (by norm_num)
  have q0 : 0 < Tc ^ (1.333 : ℝ) := Real.rpow_pos_of_pos hTc _
  unfold convectiveTemperature
  rw [← hslip] at hair
  generalize Tc' ^ (1.333 : ℝ) = c' at *
  generalize Tc ^ (1.333 : ℝ) = c at *
  generalize Tm ^ (1.333 : ℝ) = m at *
  have low : c ≤ mix f c m := by unfold mix; nlinarith
  have h0' : 0 ≤ f := by linarith
  have up : mix f c m ≤ mix f' c' m := by
    unfold mix
    have k1 := mul_le_mul_of_nonneg_left q1 h0'
    have k2 := mul_le_mul_of_nonneg_right hf (sub_nonneg.mpr q2)
    nlinarith
  have p1 := Real.rpow_le_rpow q0.le low (show (0 : ℝ) ≤ 0.75 by norm_num)
  have p2 := Real.rpow_le_rpow (q0.le.trans low) up (show (0 : ℝ) ≤ 0.75 by norm_num)
  exact ⟨q0.le.trans low, by linarith, by linarith⟩

section
variable {g g' : Integrator ℝ} (hs : EqualLava g g') {x0 r r' : ℝ} (he : Everyday g x0 r) (he' : Everyday g' x0 r') (hcov : CoverShrinks g.models.cover)
  (hcov' : CoverShrinks g'.models.cover) (hh : Harsher g.models g'.models) {T : Terrain ℝ} (hd : 0 < T.depth)
include hs he he' hcov hcov' hh hd

/-- A harsher flux takes more. -/
theorem harsher_flux {width : ℝ} {s : FlowState ℝ} (hw : 0 < width) (hx : x0 ≤ s.pos) (hT : g.models.cryst.solidTemperature < s.temp)
    (hv : ∀ v x, g.models.lava.meanVelocity T s = .ok (v, x) → 0 < v) {f f' : Flux ℝ} (hf : HarsherFlux g.models g'.models f f') (hev : EverydayFlux g.models f)
    (hev' : EverydayFlux g'.models f') {q' : ℝ} (hq : FluxIs g'.models width T.depth T s f' q') :
    ∃ q, FluxIs g.models width T.depth T s f q ∧ q ≤ q' := by
  have el := hs.lava
  have core : ∀ Tc', g'.models.crust.temperature s = .ok Tc' → ∃ Tc, g.models.crust.temperature s = .ok Tc ∧ 0 < Tc ∧ g.models.air.temp ≤ Tc ∧ Tc ≤ Tc' ∧
      Tc' ≤ coreTemperature g.models.lava s ∧ g.models.air.temp ≤ Tc ^ slippedExponent := by
    intro Tc' h
    obtain ⟨Tc, e1, e2⟩ := hh.crust s Tc' h
    obtain ⟨c1, c2, c3, c4⟩ := he.crust s Tc hx e1
    obtain ⟨_, _, _, d4⟩ := he'.crust s Tc' hx h
    rw [hs.cryst, el] at d4
    refine ⟨Tc, e1, by linarith, c2, e2, ?_, c3⟩
    unfold coreTemperature
    linarith
  have ha' := he'.air.le
  cases f with
  | rain a b c =>
    cases f' with
    | rain a' b' c' =>
      have hq : q' = a' * b' * c' * width := hq
      have hf : a * b * c ≤ a' * b' * c' := hf
      exact ⟨_, rfl, by rw [hq]; gcongr⟩
    | _ => exact hf.elim
  | conduction base pct =>
    cases f' with
    | conduction base' pct' =>
      obtain ⟨_, rfl⟩ := hq
      obtain ⟨hb, hp⟩ := hf
      have hp0 : 0 < pct := hev.1
      have hp0' : 0 < pct' := hev'.1
      have hb0 : base ≤ g.models.cryst.solidTemperature := hev.2
      refine ⟨_, ⟨(mul_pos hp0 hd).ne', rfl⟩, ?_⟩
      rw [el]
      have : 0 ≤ s.temp - base := by linarith
      have : 0 ≤ s.temp - base' := by linarith
      gcongr
    | _ => exact hf.elim
  | radBasic sg e =>
    cases f' with
    | radBasic sg' e' =>
      obtain ⟨v, x, Tc', s1, e1, k0, k1, k2, k3, k4, k5, rfl⟩ := hq
      simp only [emissivityOf, Option.some.injEq, Prod.mk.injEq] at k5
      obtain ⟨rfl, rfl⟩ := k5
      rw [el] at k0 k3 k4 ⊢
      have hv0 := hv _ _ k0
      obtain ⟨Tc, t1, t2, t3, t4, t5, t6⟩ := core _ k1
      obtain ⟨f0, f1⟩ := cover_unit hcov (x := s.pos) hv0
      obtain ⟨f0', f1'⟩ := cover_unit hcov' (x := s.pos) hv0
      obtain ⟨x1, x2⟩ := exchange_mono (hh.cover s.pos v hv0) f0' f1 ha' hh.air t3 t4 t5
      refine ⟨_, ⟨v, x, Tc, sg, e, k0, t1, t2.ne', k3, x1, rfl, rfl⟩, ?_⟩
      have hf : sg * e ≤ sg' * e' := hf
      have h0 : 0 ≤ sg * e := hev
      have h0' : 0 ≤ sg' * e' := hev'
      gcongr
    | _ => exact hf.elim
  | radTwoEmi sg e1 e2 =>
    cases f' with
    | radTwoEmi sg' e1' e2' =>
      obtain ⟨v, x, Tc', s1, e3, k0, k1, k2, k3, k4, k5, rfl⟩ := hq
      simp only [emissivityOf, Option.some.injEq, Prod.mk.injEq] at k5
      obtain ⟨rfl, rfl⟩ := k5
      obtain ⟨hsg, h1, h2, hcr, hco⟩ := hf
      rw [el] at k0 k3 k4 ⊢
      rw [hcr] at k1
      rw [hco] at k4 ⊢
      have hv0 := hv _ _ k0
      obtain ⟨Tc, t1, t2, t3, t4, t5, t6⟩ := core _ (by rw [hcr]; exact k1)
      obtain rfl : Tc = Tc' := by rw [t1] at k1; injection k1
      obtain ⟨f0, f1⟩ := cover_unit hcov (x := s.pos) hv0
      obtain ⟨x1, x2⟩ := exchange_mono le_rfl f0 f1 ha' hh.air t3 le_rfl t5
      refine ⟨_, ⟨v, x, _, sg, _, k0, t1, t2.ne', k3, x1, rfl, rfl⟩, ?_⟩
      obtain ⟨a1, a2, a3⟩ := hev
      have m1 : mix (coverLaw g.models.cover s.pos v) e1 e2 ≤ mix (coverLaw g.models.cover s.pos v) e1' e2' := by
        unfold mix
        have := mul_le_mul_of_nonneg_left h1 f0
        have := mul_le_mul_of_nonneg_left h2 (sub_nonneg.mpr f1)
        linarith
      have m0 : 0 ≤ mix (coverLaw g.models.cover s.pos v) e1 e2 := by
        unfold mix
        have := mul_nonneg f0 (a2.trans a3)
        have := mul_nonneg (sub_nonneg.mpr f1) a2
        linarith
      have : 0 ≤ mix (coverLaw g.models.cover s.pos v) e1' e2' := m0.trans m1
      have : 0 ≤ sg' := a1.trans hsg
      gcongr
    | _ => exact hf.elim
  | convection =>
    cases f' with
    | convection =>
      obtain ⟨v, x, Tc', k0, k1, k2, k3, k4, rfl⟩ := hq
      rw [el] at k0 k3 k4 ⊢
      have hv0 := hv _ _ k0
      obtain ⟨Tc, t1, t2, t3, t4, t5, t6⟩ := core _ k1
      obtain ⟨f0, f1⟩ := cover_unit hcov (x := s.pos) hv0
      obtain ⟨f0', f1'⟩ := cover_unit hcov' (x := s.pos) hv0
      obtain ⟨x0', x1, x2⟩ := convective_mono (hh.cover s.pos v hv0) f0' f1 t2 hh.air t6 t4 t5
      refine ⟨_, ⟨v, x, Tc, k0, t1, t2.le, k3, x0', rfl⟩, ?_⟩
      have h0 : 0 ≤ g.models.air.convCoef := hev
      have h1 := hh.wind
      have : 0 ≤ g'.models.air.convCoef := h0.trans h1
      gcongr
    | _ => exact hf.elim
  | _ => exact hev.elim

omit hs he hcov hh in
/-- The fluxes of C121 take heat. -/
theorem everyday_cools {width : ℝ} {s : FlowState ℝ} (hw : 0 < width) (hx : x0 ≤ s.pos) (hT : g'.models.cryst.solidTemperature < s.temp)
    (hv : ∀ v x, g'.models.lava.meanVelocity T s = .ok (v, x) → 0 < v) {f : Flux ℝ} (hev : EverydayFlux g'.models f) {q : ℝ}
    (hq : FluxIs g'.models width T.depth T s f q) : 0 ≤ q := by
  cases f with
  | rain a b c =>
    have hq : q = a * b * c * width := hq
    have hev : 0 ≤ a * b * c := hev
    rw [hq]; positivity
  | conduction base pct =>
    obtain ⟨_, rfl⟩ := hq
    have hp0 : 0 < pct := hev.1
    have hb0 : base ≤ g'.models.cryst.solidTemperature := hev.2
    have : 0 ≤ s.temp - base := by linarith
    positivity
  | radBasic sg e =>
    obtain ⟨v, x, Tc', s1, e1, k0, k1, k2, k3, k4, k5, rfl⟩ := hq
    simp only [emissivityOf, Option.some.injEq, Prod.mk.injEq] at k5
    obtain ⟨rfl, rfl⟩ := k5
    have hev : 0 ≤ sg * e := hev
    positivity
  | radTwoEmi sg e1 e2 =>
    obtain ⟨v, x, Tc', s1, e3, k0, k1, k2, k3, k4, k5, rfl⟩ := hq
    simp only [emissivityOf, Option.some.injEq, Prod.mk.injEq] at k5
    obtain ⟨rfl, rfl⟩ := k5
    obtain ⟨f0, f1⟩ := cover_unit hcov' (x := s.pos) (hv _ _ k0)
    obtain ⟨a1, a2, a3⟩ := hev
    have m0 : 0 ≤ mix (coverLaw g'.models.cover s.pos v) e1 e2 := by
      unfold mix
      have := mul_nonneg f0 (a2.trans a3)
      have := mul_nonneg (sub_nonneg.mpr f1) a2
      linarith
    positivity
  | convection =>
    obtain ⟨v, x, Tc', k0, k1, k2, k3, k4, rfl⟩ := hq
    have hv0 := hv _ _ k0
    obtain ⟨f0, f1⟩ := cover_unit hcov' (x := s.pos) hv0
    obtain ⟨c1, c2, c3, c4⟩ := he'.crust s _ hx k1
    have h1 : Tc' ≤ coreTemperature g'.models.lava s := by unfold coreTemperature; linarith
    obtain ⟨_, x1, _⟩ := convective_mono le_rfl f0 f1 (show 0 < Tc' by linarith) le_rfl c3 le_rfl h1
    have h0 : 0 ≤ g'.models.air.convCoef := hev
    positivity
  | _ => exact hev.elim

/-- **C122**, harsher surroundings take more heat. Take two set-ups of the same lava, both with the models of C121. If the air of the second is not warmer, its wind not weaker, its
    crust not colder and nowhere more extended, and each flux of the first has a harsher counterpart in the second (which may have further fluxes), then lava above the solidus that
    moves loses at least as much heat in the second. -/
theorem C122_loses_more : LosesMore g.models g'.models T fun x t _ => x0 ≤ x ∧ g.models.cryst.solidTemperature < t := by
  intro width s qs' hw ⟨hx, hT⟩ hv hq
  obtain ⟨fs, extra, hperm, hf⟩ := hh.fluxes
  obtain ⟨q1, q2, p1, p2, hsum⟩ := forall₂_part hperm hq
  have hev := he.fluxes
  have hmem : ∀ f ∈ fs, EverydayFlux g'.models f := fun f hf => he'.fluxes f (hperm.mem_iff.mpr (List.mem_append_left _ hf))
  have part1 : ∃ qs, List.Forall₂ (FluxIs g.models width T.depth T s) g.models.fluxes qs ∧ qs.sum ≤ q1.sum := by
    clear hsum hq hperm p2
    generalize g.models.fluxes = gs at hf hev
    induction hf generalizing q1 with
    | nil => cases p1; exact ⟨[], .nil, le_rfl⟩
    | cons h1 h2 ih =>
      cases p1 with
      | cons a1 a2 =>
        obtain ⟨q, b1, b2⟩ := harsher_flux hs he he' hcov hcov' hh hd hw hx hT hv h1 (hev _ (by simp)) (hmem _ (by simp)) a1
        obtain ⟨qs, c1, c2⟩ := ih _ a2 (fun f hf => hmem f (by simp [hf])) (fun f hf => hev f (by simp [hf]))
        refine ⟨q :: qs, .cons b1 c1, ?_⟩
        simp only [List.sum_cons]
        linarith
  have part2 : 0 ≤ q2.sum := by
    have hex : ∀ f ∈ extra, EverydayFlux g'.models f := fun f hf => he'.fluxes f (hperm.mem_iff.mpr (List.mem_append_right _ hf))
    clear hsum hq hperm p1
    induction p2 with
    | nil => simp
    | cons a1 _ ih =>
      have := ih (fun f hf => hex f (by simp [hf]))
      have := everyday_cools he' hcov' hd hw hx (by rw [hs.cryst]; exact hT) (by rw [hs.lava]; exact hv) (hex _ (by simp)) a1
      simp only [List.sum_cons]
      linarith
  obtain ⟨qs, c1, c2⟩ := part1
  exact ⟨qs, c1, by rw [hsum]; linarith⟩
end
end PyFlowGo
