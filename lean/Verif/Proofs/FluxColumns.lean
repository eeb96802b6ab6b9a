import Verif.Spec.ColumnSpec
import Verif.Props.Budget
/-
  The log entries of every flux, in full (C71).
-/
set_option linter.unusedSectionVars false
namespace PyFlowGo
open Spec

theorem planck_value {t : ℝ} (ht : t ≠ 0) : planck t = .ok (planckLaw t) := by
  unfold planck
  simp only [PyNum.exp]
  have h1 : (1.38 * 1e-23 : ℝ) ≠ 0 := by norm_num
  rw [div_of_ne h1, ok_bind]
  have h2 : (0 : ℝ) < 0.8675 * 1e-6 := by norm_num
  rw [pow_of_pos _ h2, ok_bind]
  have h3 : (0.8675 * 1e-6 : ℝ) * t ≠ 0 := mul_ne_zero h2.ne' ht
  rw [div_of_ne h3, ok_bind]
  rw [div_of_ne]
  · have e1 : (0.8675 * 1e-6 : ℝ) ^ (-5.0 : ℝ) = 1 / 0.8675e-6 ^ 5 := by
      rw [show (-5.0 : ℝ) = -((5 : ℕ) : ℝ) by norm_num, Real.rpow_neg h2.le, Real.rpow_natCast, one_div]
      norm_num
    have e2 : (6.6256 * 1e-34 * (2.9979 * 1e8) / (1.38 * 1e-23) / (0.8675 * 1e-6 * t) : ℝ) =
        6.6256e-34 * 2.9979e8 / 1.38e-23 / (0.8675e-6 * t) := by
      norm_num
    rw [e1, e2]
    unfold planckLaw
    simp only [npow_real, PyNum.pi]
    congr 2
    · norm_num; ring
    · norm_num
  · intro h
    have h4 : Real.exp (6.6256 * 1e-34 * (2.9979 * 1e8) / (1.38 * 1e-23) / (0.8675 * 1e-6 * t)) = 1 := by
      linarith
    rw [Real.exp_eq_one_iff] at h4
    have : (6.6256 * 1e-34 * (2.9979 * 1e8) / (1.38 * 1e-23) / (0.8675 * 1e-6 * t) : ℝ) ≠ 0 := by
      apply div_ne_zero
      · norm_num
      · exact h3
    exact this h4

theorem spectralFormula_value {lp f tc tm em ec width r : ℝ} (hlp : lp ≠ 0)
    (h : spectralRadianceFormula lp f tc tm em ec width = .ok r) : r = pixelRadiance lp f tc tm em ec width := by
  obtain ⟨h1, h2⟩ := (spectralFormula_ok_iff hlp).mp ⟨r, h⟩
  unfold spectralRadianceFormula at h
  have hl : lp * lp ≠ 0 := mul_ne_zero hlp hlp
  dsimp only at h
  rw [div_of_ne hl, div_of_ne hl, ok_bind, ok_bind, planck_value h1, planck_value h2,
    planck_value (show (258.0 : ℝ) ≠ 0 by norm_num), ok_bind, ok_bind, ok_bind, pure_ok_iff] at h
  rw [← h]
  unfold pixelRadiance
  rw [show (258.0 : ℝ) = 258 by norm_num]
  generalize planckLaw tc = a
  generalize planckLaw tm = b
  generalize planckLaw 258 = c
  have e1 : lp * width * (1.0 - f) / (lp * lp) = (1 - f) * width / lp := by
    rw [show (1.0 : ℝ) = 1 by norm_num]; field_simp
  have e2 : lp * width * f / (lp * lp) = f * width / lp := by field_simp
  have e3 : (1.0 : ℝ) - (1 - f) * width / lp - f * width / lp = 1 - width / lp := by
    rw [show (1.0 : ℝ) = 1 by norm_num]; ring
  rw [e1, e2, e3, show (0.8e-6 : ℝ) = 0.8 * 1e-6 by norm_num]
  generalize em * ((1 - f) * width / lp) * b + ec * (f * width / lp) * a + (1 - width / lp) * 0.1 * c = z
  exact mul_right_comm _ _ _

/-- The entries a flux adds, up to the duplicated ones. -/
def cells (l : List (String × ℝ)) : List (String × Cell ℝ) := l.map fun e => (e.1, .num e.2)

theorem lastEntry_cells (l : List (String × ℝ)) (n : String) : lastEntry (cells l) n = (lastWritten l n).map .num := by
  unfold lastEntry lastWritten cells
  rw [← List.map_reverse, List.find?_map, Option.map_map, Option.map_map]
  rfl

theorem radiation_entries {m : Models ℝ} (hl : StrainIndependent m.lava) {sigma lp width q : ℝ} (hlp : lp ≠ 0)
    {epsilon : PyM (World ℝ) ℝ} {eps : ℝ → ℝ → ℝ × ℝ} (w w' : World ℝ) (v x0 Tc e : ℝ)
    (hv : m.lava.meanVelocity w.terrain w.st = .ok (v, x0)) (hc : m.crust.temperature w.st = .ok Tc)
    (extra : List (String × Cell ℝ)) (hx : extra = [] ∨ extra = [("effective_radiation_temperature", .num
        (radiantExchange (coverLaw m.cover w.st.pos v) Tc (m.lava.moltenTemperature w.st) m.air.temp ^ (1 / 4 : ℝ)))])
    (hE : ∀ (x : ℝ) (es : List (String × Cell ℝ)) (e' : ℝ) (w2 : World ℝ), epsilon (w.touched x es) = (.ok e', w2) →
      e' = e ∧ ∃ x', w2 = w.touched x' (es ++ extra))
    (h : radiationFlux m sigma epsilon lp eps width w = (.ok q, w')) :
    ∃ y es, w' = w.touched y es ∧ ∀ n, lastEntry es n = (lastWritten
      [("effective_radiation_temperature",
        radiantExchange (coverLaw m.cover w.st.pos v) Tc (m.lava.moltenTemperature w.st) m.air.temp ^ (1 / 4 : ℝ)),
       ("epsilon_effective", e),
       ("spectral_radiance", pixelRadiance lp (coverLaw m.cover w.st.pos v) Tc (m.lava.moltenTemperature w.st)
          (eps Tc (m.lava.moltenTemperature w.st)).1 (eps Tc (m.lava.moltenTemperature w.st)).2 width)] n).map .num := by
  obtain ⟨te, w1, e', w2, w3, h1, h2, h3, h4, rfl⟩ := radiationFlux_iff.mp h
  obtain ⟨v', x, tc, hv', htc, hte, rfl⟩ := effRad_iff.mp h1
  rw [hv, Except.ok.injEq, Prod.mk.injEq] at hv'
  obtain ⟨rfl, rfl⟩ := hv'
  rw [hc, Except.ok.injEq] at htc
  subst htc
  rw [cover_value] at hte
  obtain ⟨hB, rfl⟩ := effectiveRadiationFormula_iff.mp hte
  obtain ⟨rfl, x', rfl⟩ := hE _ _ _ _ h2
  rw [logNum_touched] at h3
  subst h3
  obtain ⟨v2, x2, tc2, r, hv2, htc2, hr, rfl⟩ := spectral_iff.mp h4
  rw [touched_st_eq, touched_st_eq, crust_strain, crust_strain, hc, Except.ok.injEq] at htc2
  subst htc2
  rw [touched_st_eq, touched_st_eq, touched_terrain_eq, touched_terrain_eq, meanVelocity_strain _ hl, touched_st_eq,
    meanVelocity_strain _ hl, hv, Except.ok.injEq, Prod.mk.injEq] at hv2
  obtain ⟨rfl, rfl⟩ := hv2
  rw [touched_st_eq, touched_st_eq, molten_strain, molten_strain, cover_value] at hr
  have hr' := spectralFormula_value hlp hr
  refine ⟨_, _, by rw [World.touched_touched, World.touched_touched], fun n => ?_⟩
  rw [← lastEntry_cells]
  dsimp only [] at hr'
  rw [hr']
  rcases hx with rfl | rfl
  · rfl
  · simp only [lastEntry, cells, List.map_cons, List.map_nil, List.cons_append, List.nil_append, List.reverse_cons,
      List.reverse_nil, List.find?_cons]
    by_cases a : n = "effective_radiation_temperature"
    · subst a; rfl
    · have : ("effective_radiation_temperature" == n) = false := by simpa using fun h => a h.symm
      simp only [this]

theorem flux_entries {m : Models ℝ} (hl : StrainIndependent m.lava) (fl : Flux ℝ) (width depth q : ℝ) (w w' : World ℝ)
    (v x0 Tc : ℝ) (hv : m.lava.meanVelocity w.terrain w.st = .ok (v, x0)) (hc : m.crust.temperature w.st = .ok Tc)
    (h : fl.compute m width depth w = (.ok q, w')) :
    ∃ y es, w' = w.touched y es ∧ ∀ n, lastEntry es n = (lastWritten (auxColumns (coverLaw m.cover w.st.pos v) Tc
      (coreTemperature m.lava w.st) m.air.temp width fl) n).map .num := by
  rw [core_eq]
  have cov : ∀ (x : ℝ) (es : List (String × Cell ℝ)) f w1, effectiveCover m (w.touched x es) = (.ok f, w1) →
      f = coverLaw m.cover w.st.pos v ∧ w1 = w.touched x0 es := by
    intro x es f w1 h1
    obtain ⟨v', y, hv', rfl, rfl⟩ := effectiveCover_iff.mp h1
    rw [touched_st_eq, touched_terrain_eq, meanVelocity_strain _ hl, hv, Except.ok.injEq, Prod.mk.injEq] at hv'
    obtain ⟨rfl, rfl⟩ := hv'
    rw [cover_value, World.touched_touched, List.append_nil]
    exact ⟨rfl, rfl⟩
  cases fl with
  | radBasic sigma e =>
    obtain ⟨y, es, e1, e2⟩ := radiation_entries hl (lp := 30.0) (by norm_num) w w' v x0 Tc e hv hc [] (.inl rfl)
      (fun x es e' w2 h => by
        rw [PyM.pure_apply, Prod.mk.injEq, Except.ok.injEq] at h
        exact ⟨h.1.symm, x, by rw [← h.2, List.append_nil]⟩) h
    refine ⟨y, es, e1, fun n => ?_⟩
    rw [e2, show (30.0 : ℝ) = 30 by norm_num]; rfl
  | radTwoEmi sigma a b =>
    obtain ⟨y, es, e1, e2⟩ := radiation_entries hl (lp := 30.0) (by norm_num) w w' v x0 Tc
      (mix (coverLaw m.cover w.st.pos v) a b) hv hc [] (.inl rfl)
      (fun x es e' w2 h => by
        obtain ⟨f, w1, h1, h2⟩ := PyM.bind_eq_ok.mp h
        obtain ⟨rfl, rfl⟩ := cov _ _ _ _ h1
        rw [PyM.pure_apply, Prod.mk.injEq, Except.ok.injEq] at h2
        refine ⟨?_, x0, by rw [← h2.2, List.append_nil]⟩
        rw [← h2.1]; unfold mix; norm_num) h
    refine ⟨y, es, e1, fun n => ?_⟩
    rw [e2, show (30.0 : ℝ) = 30 by norm_num]; rfl
  | radCont sigma =>
    obtain ⟨y, es, e1, e2⟩ := radiation_entries hl (lp := 0.1) (by norm_num) w w' v x0 Tc
      (mix (coverLaw m.cover w.st.pos v) (quadraticEmissivity Tc) (quadraticEmissivity (m.lava.moltenTemperature w.st)))
      hv hc [] (.inl rfl)
      (fun x es e' w2 h => by
        obtain ⟨f, w1, h1, h2⟩ := PyM.bind_eq_ok.mp h
        obtain ⟨rfl, rfl⟩ := cov _ _ _ _ h1
        obtain ⟨tc, w3, h3, h4⟩ := PyM.bind_eq_ok.mp h2
        obtain ⟨htc, rfl⟩ := crustTemperature_iff.mp h3
        rw [touched_st_eq, crust_strain, hc, Except.ok.injEq] at htc
        subst htc
        obtain ⟨tm, w4, h5, h6⟩ := PyM.bind_eq_ok.mp h4
        obtain ⟨rfl, rfl⟩ := moltenTemperature_iff.mp h5
        rw [PyM.pure_apply, Prod.mk.injEq, Except.ok.injEq] at h6
        refine ⟨?_, x0, by rw [← h6.2, List.append_nil]⟩
        rw [← h6.1, cont_law, cont_law, touched_st_eq, molten_strain]; unfold mix; norm_num) h
    refine ⟨y, es, e1, fun n => ?_⟩
    rw [e2]; simp only [cont_law]; rfl
  | radLin sigma =>
    obtain ⟨y, es, e1, e2⟩ := radiation_entries hl (lp := 0.1) (by norm_num) w w' v x0 Tc
      (linearEmissivity (radiantExchange (coverLaw m.cover w.st.pos v) Tc (m.lava.moltenTemperature w.st) m.air.temp ^ (1 / 4 : ℝ)))
      hv hc _ (.inr rfl)
      (fun x es e' w2 h => by
        obtain ⟨te, w1, h1, h2⟩ := PyM.bind_eq_ok.mp h
        obtain ⟨v', y, tc, hv', htc, hte, rfl⟩ := effRad_iff.mp h1
        rw [touched_st_eq, touched_terrain_eq, meanVelocity_strain _ hl, hv, Except.ok.injEq, Prod.mk.injEq] at hv'
        obtain ⟨rfl, rfl⟩ := hv'
        rw [touched_st_eq, crust_strain, hc, Except.ok.injEq] at htc
        subst htc
        rw [touched_st_eq, molten_strain, cover_value] at hte
        obtain ⟨_, rfl⟩ := effectiveRadiationFormula_iff.mp hte
        rw [PyM.pure_apply, Prod.mk.injEq, Except.ok.injEq] at h2
        refine ⟨by rw [← h2.1, lin_law], _, by rw [← h2.2, World.touched_touched]⟩) h
    refine ⟨y, es, e1, fun n => ?_⟩
    rw [e2]; simp only [lin_law]; rfl
  | conduction baseT pct =>
    have : w' = w := by
      simp only [Flux.compute, Prod.mk.injEq] at h; exact h.2.symm
    exact ⟨w.st.strain, [], this, fun n => rfl⟩
  | rain a b c =>
    have : w' = w := by
      simp only [Flux.compute, PyM.pure_apply, Prod.mk.injEq] at h; exact h.2.symm
    exact ⟨w.st.strain, [], this, fun n => rfl⟩
  | viscous =>
    simp only [Flux.compute] at h
    rw [PyM.bind_of_ok (PyM.get_apply w)] at h
    obtain ⟨visc, w1, h1, ha⟩ := PyM.bind_eq_ok.mp h
    obtain ⟨k1, rfl⟩ := PyM.lift_eq_ok.mp h1
    obtain ⟨v, w2, h2, hb⟩ := PyM.bind_eq_ok.mp ha
    obtain ⟨x, k2, rfl⟩ := meanVelocityM_ok h2
    obtain ⟨k, w3, h3, hd⟩ := PyM.bind_eq_ok.mp hb
    obtain ⟨k3, rfl⟩ := PyM.lift_eq_ok.mp h3
    rw [PyM.pure_apply, Prod.mk.injEq, Except.ok.injEq] at hd
    exact ⟨x, [], hd.2.symm, fun n => rfl⟩
  | convection =>
    simp only [Flux.compute] at h
    obtain ⟨tc, w1, h1, ha⟩ := PyM.bind_eq_ok.mp h
    obtain ⟨k1, rfl⟩ := crustTemperature_iff.mp h1
    rw [hc, Except.ok.injEq] at k1
    subst k1
    obtain ⟨f, w2, h2, hb⟩ := PyM.bind_eq_ok.mp ha
    obtain ⟨v', x, hv', rfl, rfl⟩ := effectiveCover_iff.mp h2
    rw [hv, Except.ok.injEq, Prod.mk.injEq] at hv'
    obtain ⟨rfl, rfl⟩ := hv'
    obtain ⟨tm, w3, h3, hd⟩ := PyM.bind_eq_ok.mp hb
    obtain ⟨rfl, rfl⟩ := moltenTemperature_iff.mp h3
    obtain ⟨t, w4, h4, he⟩ := PyM.bind_eq_ok.mp hd
    obtain ⟨k4, rfl⟩ := PyM.lift_eq_ok.mp h4
    rw [log_step, log_step, log_step, PyM.pure_apply, Prod.mk.injEq, Except.ok.injEq] at he
    rw [cover_value] at k4
    obtain ⟨_, _, _, rfl⟩ := characteristicFormula_iff.mp k4
    refine ⟨_, _, he.2.symm, fun n => ?_⟩
    rw [← lastEntry_cells, show (0.0 : ℝ) = 0 by norm_num]
    rfl
  | snyder =>
    simp only [Flux.compute] at h
    obtain ⟨tc, w1, h1, ha⟩ := PyM.bind_eq_ok.mp h
    obtain ⟨k1, rfl⟩ := crustTemperature_iff.mp h1
    rw [hc, Except.ok.injEq] at k1
    subst k1
    obtain ⟨f, w2, h2, hb⟩ := PyM.bind_eq_ok.mp ha
    obtain ⟨v', x, hv', rfl, rfl⟩ := effectiveCover_iff.mp h2
    rw [hv, Except.ok.injEq, Prod.mk.injEq] at hv'
    obtain ⟨rfl, rfl⟩ := hv'
    obtain ⟨tm, w3, h3, hd⟩ := PyM.bind_eq_ok.mp hb
    obtain ⟨rfl, rfl⟩ := moltenTemperature_iff.mp h3
    rw [log_step] at hd
    obtain ⟨p, w4, h4, he⟩ := PyM.bind_eq_ok.mp hd
    obtain ⟨k4, rfl⟩ := PyM.lift_eq_ok.mp h4
    rw [log_step, log_step, log_step, log_step, PyM.pure_apply, Prod.mk.injEq, Except.ok.injEq] at he
    refine ⟨_, _, he.2.symm, fun n => ?_⟩
    rw [← lastEntry_cells, show (0.0 : ℝ) = 0 by norm_num, show (1.0 : ℝ) = 1 by norm_num, cover_value]
    rfl

end PyFlowGo
