import Verif.Proofs.StepForward
/-
  What a successful evaluation of each flux computed.  Valid for every number type unless stated at ℝ.
-/
namespace PyFlowGo
variable {α : Type} [Add α] [Sub α] [Mul α] [Neg α] [OfScientific α] [PyNum α]

theorem crust_strain (m : CrustModel α) (s : FlowState α) (x : α) :
    m.temperature { s with strain := x } = m.temperature s := by
  cases m <;> first | rfl | (rename_i a b; cases b <;> rfl)

theorem effectiveCover_iff {m : Models α} {w w' : World α} {f : α} :
    effectiveCover m w = (.ok f, w') ↔
      ∃ v x, m.lava.meanVelocity w.terrain w.st = .ok (v, x) ∧ f = m.cover.value w.st.pos v ∧
        w' = w.touched x [] := by
  constructor
  · intro h
    obtain ⟨v, x, h1, h2, h3⟩ := effectiveCover_ok h
    exact ⟨v, x, h1, h2, h3⟩
  · rintro ⟨v, x, h1, rfl, rfl⟩
    exact effectiveCover_forward h1

theorem crustTemperature_iff {m : Models α} {w w' : World α} {t : α} :
    crustTemperature m w = (.ok t, w') ↔ m.crust.temperature w.st = .ok t ∧ w' = w := by
  unfold crustTemperature
  rw [Prod.mk.injEq]
  exact and_congr_right fun _ => eq_comm

theorem moltenTemperature_iff {m : Models α} {w w' : World α} {t : α} :
    moltenTemperature m w = (.ok t, w') ↔ t = m.lava.moltenTemperature w.st ∧ w' = w := by
  unfold moltenTemperature
  rw [Prod.mk.injEq, Except.ok.injEq]
  exact and_congr eq_comm eq_comm

theorem effRad_iff {m : Models α} {w w' : World α} {te : α} :
    effectiveRadiationTemperature m w = (.ok te, w') ↔
      ∃ v x tc, m.lava.meanVelocity w.terrain w.st = .ok (v, x) ∧ m.crust.temperature w.st = .ok tc ∧
        effectiveRadiationFormula (m.cover.value w.st.pos v) tc (m.lava.moltenTemperature w.st) m.air.temp =
          .ok te ∧
        w' = w.touched x [("effective_radiation_temperature", .num te)] := by
  unfold effectiveRadiationTemperature
  constructor
  · intro h
    obtain ⟨f, w1, hf, h⟩ := PyM.bind_eq_ok.mp h
    obtain ⟨v, x, hv, rfl, rfl⟩ := effectiveCover_iff.mp hf
    obtain ⟨tc, w2, htc, h⟩ := PyM.bind_eq_ok.mp h
    obtain ⟨htc2, rfl⟩ := crustTemperature_iff.mp htc
    obtain ⟨tm, w3, htm, h⟩ := PyM.bind_eq_ok.mp h
    obtain ⟨rfl, rfl⟩ := moltenTemperature_iff.mp htm
    obtain ⟨te', w4, hte, h⟩ := PyM.bind_eq_ok.mp h
    obtain ⟨hte2, rfl⟩ := PyM.lift_eq_ok.mp hte
    rw [log_step] at h
    obtain ⟨h1, rfl⟩ := Prod.mk.injEq _ _ _ _ |>.mp h
    injection h1 with h1
    subst h1
    exact ⟨v, x, tc, hv, by rw [← htc2]; exact (crust_strain _ _ _).symm, hte2, rfl⟩
  · rintro ⟨v, x, tc, hv, htc, hte, rfl⟩
    rw [PyM.bind_of_ok (effectiveCover_iff.mpr ⟨v, x, hv, rfl, rfl⟩)]
    rw [PyM.bind_of_ok (crustTemperature_iff (w := w.touched x []) (t := tc).mpr ⟨by rw [← htc]; exact crust_strain _ _ _, rfl⟩)]
    rw [PyM.bind_of_ok (moltenTemperature_iff (w := w.touched x []) (t := m.lava.moltenTemperature w.st).mpr ⟨rfl, rfl⟩)]
    rw [PyM.bind_of_ok (PyM.lift_eq_ok.mpr ⟨hte, rfl⟩), log_step]
    rfl

theorem spectral_iff {m : Models α} {lp width : α} {eps : α → α → α × α} {w w' : World α} :
    spectralRadiance m lp eps width w = (.ok (), w') ↔
      ∃ v x tc r, m.lava.meanVelocity w.terrain w.st = .ok (v, x) ∧ m.crust.temperature w.st = .ok tc ∧
        spectralRadianceFormula lp (m.cover.value w.st.pos v) tc (m.lava.moltenTemperature w.st)
          (eps tc (m.lava.moltenTemperature w.st)).1 (eps tc (m.lava.moltenTemperature w.st)).2 width = .ok r ∧
        w' = w.touched x [("spectral_radiance", .num r)] := by
  unfold spectralRadiance
  constructor
  · intro h
    obtain ⟨f, w1, hf, h⟩ := PyM.bind_eq_ok.mp h
    obtain ⟨v, x, hv, rfl, rfl⟩ := effectiveCover_iff.mp hf
    obtain ⟨tc, w2, htc, h⟩ := PyM.bind_eq_ok.mp h
    obtain ⟨htc2, rfl⟩ := crustTemperature_iff.mp htc
    obtain ⟨tm, w3, htm, h⟩ := PyM.bind_eq_ok.mp h
    obtain ⟨rfl, rfl⟩ := moltenTemperature_iff.mp htm
    obtain ⟨r, w4, hr, h⟩ := PyM.bind_eq_ok.mp h
    obtain ⟨hr2, rfl⟩ := PyM.lift_eq_ok.mp hr
    have h2 : w' = w.touched x [("spectral_radiance", .num r)] := by
      simp only [logNum, logCell, PyM.modify_apply, Prod.mk.injEq] at h
      rw [← h.2]; rfl
    exact ⟨v, x, tc, r, hv, by rw [← htc2]; exact (crust_strain _ _ _).symm, hr2, h2⟩
  · rintro ⟨v, x, tc, r, hv, htc, hr, rfl⟩
    rw [PyM.bind_of_ok (effectiveCover_iff.mpr ⟨v, x, hv, rfl, rfl⟩)]
    rw [PyM.bind_of_ok (crustTemperature_iff (w := w.touched x []) (t := tc).mpr ⟨by rw [← htc]; exact crust_strain _ _ _, rfl⟩)]
    rw [PyM.bind_of_ok (moltenTemperature_iff (w := w.touched x []) (t := m.lava.moltenTemperature w.st).mpr ⟨rfl, rfl⟩)]
    rw [PyM.bind_of_ok (PyM.lift_eq_ok.mpr ⟨hr, rfl⟩)]
    rfl

/-- Inversion of the radiation flux; `epsilon` is the emissivity computation. -/
theorem radiationFlux_iff {m : Models α} {sigma lp width q : α} {epsilon : PyM (World α) α}
    {eps : α → α → α × α} {w w' : World α} :
    radiationFlux m sigma epsilon lp eps width w = (.ok q, w') ↔
      ∃ te w1 e w2 w3, effectiveRadiationTemperature m w = (.ok te, w1) ∧ epsilon w1 = (.ok e, w2) ∧
        logNum "epsilon_effective" e w2 = (.ok (), w3) ∧
        spectralRadiance m lp eps width w3 = (.ok (), w') ∧ q = sigma * e * PyNum.npow te 4 * width := by
  unfold radiationFlux
  constructor
  · intro h
    obtain ⟨te, w1, h1, h⟩ := PyM.bind_eq_ok.mp h
    obtain ⟨e, w2, h2, h⟩ := PyM.bind_eq_ok.mp h
    obtain ⟨_, w3, h3, h⟩ := PyM.bind_eq_ok.mp h
    obtain ⟨_, w4, h4, h⟩ := PyM.bind_eq_ok.mp h
    obtain ⟨h5, rfl⟩ := Prod.mk.injEq _ _ _ _ |>.mp h
    injection h5 with h5
    exact ⟨te, w1, e, w2, w3, h1, h2, h3, h4, h5.symm⟩
  · rintro ⟨te, w1, e, w2, w3, h1, h2, h3, h4, rfl⟩
    rw [PyM.bind_of_ok h1, PyM.bind_of_ok h2, PyM.bind_of_ok h3, PyM.bind_of_ok h4]
    rfl

omit [Add α] [Sub α] [Mul α] [Neg α] [OfScientific α] in
theorem logNum_touched {n : String} {v : α} {w w' : World α} :
    logNum n v w = (.ok (), w') ↔ w' = w.touched w.st.strain [(n, .num v)] := by
  simp only [logNum, logCell, PyM.modify_apply, Prod.mk.injEq, true_and]
  exact eq_comm

end PyFlowGo
