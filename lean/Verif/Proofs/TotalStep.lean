import Verif.Proofs.Total
import Verif.Proofs.FluxValue
/-
  C117: with sensible parameters a step of a fit state succeeds.
-/
set_option linter.unusedSectionVars false
namespace PyFlowGo
open Spec

variable {g : Integrator ℝ} {t : Terrain ℝ} {x0 : ℝ} {s : FlowState ℝ}

/-- The lava moves, whatever the strain rate the state holds. -/
def Moves (g : Integrator ℝ) (t : Terrain ℝ) (s : FlowState ℝ) : Prop :=
  ∀ y, ∃ v x, g.models.lava.meanVelocity t { s with strain := y } = .ok (v, x) ∧ 0 < v

theorem runs_velocity (hm : Moves g t s) : Runs (Stand t s) (meanVelocityM g.models.lava) fun v w => Stand t s w ∧ 0 < v := by
  rintro w ⟨ht, y, hy⟩
  obtain ⟨v, x, hv, h0⟩ := hm y
  refine ⟨v, { w with st := { w.st with strain := x } }, ?_, ⟨ht, x, ?_⟩, h0⟩
  · unfold meanVelocityM
    rw [ht, hy, hv]
  · show { w.st with strain := x } = _
    rw [hy]

theorem cover_fraction (m : CoverModel ℝ) (h : CoverSensible m) (p v : ℝ) (hv : 0 ≤ v) : 0 ≤ m.value p v ∧ m.value p v ≤ 1 := by
  have key : ∀ a f : ℝ, a ≤ 0 → 0 ≤ f → f ≤ 1 → 0 ≤ f * Real.exp (a * v) ∧ f * Real.exp (a * v) ≤ 1 := by
    intro a f ha h0 h1
    have he : Real.exp (a * v) ≤ 1 := Real.exp_le_one_iff.mpr (mul_nonpos_of_nonpos_of_nonneg ha hv)
    exact ⟨by positivity, mul_le_one₀ h1 (Real.exp_pos _).le he⟩
  cases m with
  | basic a f => exact key a f h.1 h.2.1 h.2.2
  | bimodal d a1 a2 f1 f2 =>
    obtain ⟨p1, p2, p3, p4, p5, p6⟩ := h
    unfold CoverModel.value
    dsimp only
    split
    · exact key a1 f1 p1 p3 p4
    · exact key a2 f2 p2 p5 p6

theorem runs_cover (hg : Sensible g t x0) (hm : Moves g t s) :
    Runs (Stand t s) (effectiveCover g.models) fun f w => Stand t s w ∧ 0 ≤ f ∧ f ≤ 1 := by
  unfold effectiveCover
  refine Runs.bind (Q := fun _ => Stand t s) (Runs.get fun _ h => h) fun w0 => ?_
  refine Runs.bind (runs_velocity hm) fun v => ?_
  exact Runs.pure _ fun w h => ⟨h.1, cover_fraction _ hg.cover _ _ h.2.le⟩

theorem runs_crust (hg : Sensible g t x0) (hs : Fit g t x0 s) :
    Runs (Stand t s) (crustTemperature g.models) fun tc w => Stand t s w ∧ 0 < tc ∧ g.models.air.temp ≤ tc := by
  rintro w ⟨ht, y, hy⟩
  obtain ⟨tc, h1, h2, h3⟩ := hg.crust { s with strain := y } hs.downstream hs.hot
  exact ⟨tc, w, by unfold crustTemperature; rw [hy, h3], ⟨ht, y, hy⟩, h1, h2⟩

theorem runs_molten (hg : Sensible g t x0) (hs : Fit g t x0 s) :
    Runs (Stand t s) (moltenTemperature g.models) fun tm w => Stand t s w ∧ 0 < tm ∧ g.models.air.temp ≤ tm := by
  rintro w ⟨ht, y, hy⟩
  refine ⟨_, w, rfl, ⟨ht, y, hy⟩, ?_, ?_⟩ <;> unfold Lava.moltenTemperature <;> rw [hy] <;> dsimp only <;>
    linarith [hs.hot, hg.molten.1, hg.molten.2]

/-- The temperatures and the cover fraction in the order in which a flux asks for them. -/
theorem runs_effective (hg : Sensible g t x0) (hs : Fit g t x0 s) (hm : Moves g t s) :
    Runs (Stand t s) (effectiveRadiationTemperature g.models) fun _ => Stand t s := by
  unfold effectiveRadiationTemperature
  refine Runs.bind (runs_cover hg hm) fun f => ?_
  refine Runs.bind (Q := fun tc w => Stand t s w ∧ (0 ≤ f ∧ f ≤ 1) ∧ 0 < tc ∧ g.models.air.temp ≤ tc) ?_ fun tc => ?_
  · intro w h
    obtain ⟨a, w1, e, h1, h2⟩ := runs_crust hg hs w h.1
    exact ⟨a, w1, e, h1, h.2, h2⟩
  refine Runs.bind (Q := fun tm w => Stand t s w ∧ (0 ≤ f ∧ f ≤ 1) ∧ (0 < tc ∧ g.models.air.temp ≤ tc) ∧ 0 < tm ∧ g.models.air.temp ≤ tm) ?_ fun tm => ?_
  · intro w h
    obtain ⟨a, w1, e, h1, h2⟩ := runs_molten hg hs w h.1
    exact ⟨a, w1, e, h1, h.2.1, h.2.2, h2⟩
  refine Runs.bind (Q := fun _ => Stand t s) (Runs.lift fun w h => ?_) fun te => ?_
  · obtain ⟨h1, ⟨f0, f1⟩, ⟨c0, c1⟩, m0, m1⟩ := h
    have a0 := hg.air
    have p1 : g.models.air.temp ^ 4 ≤ tc ^ 4 := pow_le_pow_left₀ a0 c1 4
    have p2 : g.models.air.temp ^ 4 ≤ tm ^ 4 := pow_le_pow_left₀ a0 m1 4
    unfold effectiveRadiationFormula
    simp only [npow_real, one_lit]
    rw [mpow_of_nonneg]
    · exact ⟨_, rfl, h1⟩
    · have := mul_nonneg f0 (sub_nonneg.mpr p1)
      have := mul_nonneg (sub_nonneg.mpr f1) (sub_nonneg.mpr p2)
      linarith
    · norm_num
  refine Runs.bind (stand_logNum _ _) fun _ => Runs.pure _ fun _ h => h

theorem runs_spectral (hg : Sensible g t x0) (hs : Fit g t x0 s) (hm : Moves g t s) (lp : ℝ) (hlp : lp ≠ 0) (eps : ℝ → ℝ → ℝ × ℝ) (width : ℝ) :
    Runs (Stand t s) (spectralRadiance g.models lp eps width) fun _ => Stand t s := by
  unfold spectralRadiance
  refine Runs.bind (Q := fun _ => Stand t s) ((runs_cover hg hm).weaken (fun _ h => h) fun _ _ h => h.1) fun f => ?_
  refine Runs.bind (runs_crust hg hs) fun tc => ?_
  refine Runs.bind (Q := fun tm w => Stand t s w ∧ 0 < tc ∧ 0 < tm) ?_ fun tm => ?_
  · intro w h
    obtain ⟨a, w1, e, h1, h2⟩ := runs_molten hg hs w h.1
    exact ⟨a, w1, e, h1, h.2.1, h2.1⟩
  refine Runs.bind (Q := fun _ => Stand t s) (Runs.lift fun w h => ?_) fun r => stand_logNum _ _
  obtain ⟨r, hr⟩ := (spectralFormula_ok_iff (lp := lp) (f := f) (em := (eps tc tm).1) (ec := (eps tc tm).2) (width := width) hlp).mpr ⟨h.2.1.ne', h.2.2.ne'⟩
  exact ⟨r, hr, h.1⟩

theorem runs_radiation (hg : Sensible g t x0) (hs : Fit g t x0 s) (hm : Moves g t s) (sigma : ℝ) (epsilon : PyM (World ℝ) ℝ)
    (he : Runs (Stand t s) epsilon fun _ => Stand t s) (lp : ℝ) (hlp : lp ≠ 0) (eps : ℝ → ℝ → ℝ × ℝ) (width : ℝ) :
    Runs (Stand t s) (radiationFlux g.models sigma epsilon lp eps width) fun _ => Stand t s := by
  unfold radiationFlux
  refine Runs.bind (runs_effective hg hs hm) fun te => ?_
  refine Runs.bind he fun e => ?_
  refine Runs.bind (stand_logNum _ _) fun _ => ?_
  refine Runs.bind (runs_spectral hg hs hm lp hlp eps width) fun _ => Runs.pure _ fun _ h => h

/-- Cover fraction, crust and molten temperature in either order. -/
theorem runs_surface (hg : Sensible g t x0) (hs : Fit g t x0 s) (hm : Moves g t s) {β : Type} (k : ℝ → ℝ → ℝ → PyM (World ℝ) β)
    (hk : ∀ f tc tm, 0 ≤ f → f ≤ 1 → 0 < tc → 0 < tm → Runs (Stand t s) (k f tc tm) fun _ => Stand t s) :
    Runs (Stand t s) (do
      let tc ← crustTemperature g.models
      let f ← effectiveCover g.models
      let tm ← moltenTemperature g.models
      k f tc tm) fun _ => Stand t s := by
  refine Runs.bind (runs_crust hg hs) fun tc => ?_
  intro w ⟨h, h1, _⟩
  refine Runs.bind (runs_cover hg hm) (fun f => ?_) w h
  intro w ⟨h, f0, f1⟩
  refine Runs.bind (runs_molten hg hs) (fun tm => ?_) w h
  intro w ⟨h, m0, _⟩
  exact hk f tc tm f0 f1 h1 m0 w h

theorem runs_flux (hg : Sensible g t x0) (hd : 0 < t.depth) (hs : Fit g t x0 s) (hm : Moves g t s) (width : ℝ) (f : Flux ℝ)
    (hf : f ∈ g.models.fluxes) : Runs (Stand t s) (f.compute g.models width t.depth) fun _ => Stand t s := by
  have hc : Runs (Stand t s) (effectiveCover g.models) fun _ => Stand t s := (runs_cover hg hm).weaken (fun _ h => h) fun _ _ h => h.1
  have hcr : Runs (Stand t s) (crustTemperature g.models) fun _ => Stand t s := (runs_crust hg hs).weaken (fun _ h => h) fun _ _ h => h.1
  have hmo : Runs (Stand t s) (moltenTemperature g.models) fun _ => Stand t s := (runs_molten hg hs).weaken (fun _ h => h) fun _ _ h => h.1
  cases f with
  | radBasic sigma eps =>
    exact runs_radiation hg hs hm _ _ (Runs.pure _ fun _ h => h) _ (by norm_num) _ _
  | radTwoEmi sigma e1 e2 =>
    refine runs_radiation hg hs hm _ _ ?_ _ (by norm_num) _ _
    exact Runs.bind hc fun f => Runs.pure _ fun _ h => h
  | radCont sigma =>
    refine runs_radiation hg hs hm _ _ ?_ _ (by norm_num) _ _
    exact Runs.bind hc fun f => Runs.bind hcr fun tc => Runs.bind hmo fun tm => Runs.pure _ fun _ h => h
  | radLin sigma =>
    refine runs_radiation hg hs hm _ _ ?_ _ (by norm_num) _ _
    exact Runs.bind (runs_effective hg hs hm) fun f => Runs.pure _ fun _ h => h
  | conduction base p =>
    intro w h
    have hp := hg.conduction base p hf
    unfold Flux.compute
    dsimp only
    rw [div_of_ne (by norm_num), ok_bind, div_of_ne (mul_ne_zero (div_ne_zero hp (by norm_num)) hd.ne'), ok_bind]
    exact ⟨_, w, rfl, h⟩
  | convection =>
    refine runs_surface hg hs hm _ fun f tc tm f0 f1 c0 m0 => ?_
    refine Runs.bind (Q := fun _ => Stand t s) (Runs.lift fun w h => ?_) fun r => ?_
    · unfold characteristicFormula
      rw [pow_of_pos _ c0, ok_bind, pow_of_pos _ m0, ok_bind, mpow_of_nonneg]
      · exact ⟨_, rfl, h⟩
      · rw [one_lit]
        have := mul_nonneg f0 (Real.rpow_nonneg c0.le 1.333)
        have := mul_nonneg (sub_nonneg.mpr f1) (Real.rpow_nonneg m0.le 1.333)
        linarith
      · norm_num
    · exact Runs.bind (stand_logNum _ _) fun _ => Runs.bind (stand_logNum _ _) fun _ => Runs.bind (stand_logNum _ _) fun _ => Runs.pure _ fun _ h => h
  | rain r rho lv => exact Runs.pure _ fun _ h => h
  | viscous =>
    refine Runs.bind (Q := fun w0 w => Stand t s w ∧ Stand t s w0) (Runs.get fun _ h => ⟨h, h⟩) fun w0 => ?_
    refine Runs.bind (Q := fun _ => Stand t s) (Runs.lift fun w h => ?_) fun visc => ?_
    · obtain ⟨_, y, hy⟩ := h.2
      obtain ⟨mu, hmu, _⟩ := viscosity_total hg (hs.withStrain y)
      rw [hy]
      exact ⟨mu, hmu, h.1⟩
    · refine Runs.bind (runs_velocity hm) fun v => ?_
      refine Runs.bind (Q := fun _ => Stand t s) (Runs.lift fun w h => ?_) fun q => Runs.pure _ fun _ h => h
      rw [div_of_ne hd.ne']
      exact ⟨_, rfl, h.1⟩
  | snyder =>
    refine runs_surface hg hs hm _ fun f tc tm f0 f1 c0 m0 => ?_
    refine Runs.bind (stand_logNum _ _) fun _ => ?_
    refine Runs.bind (Q := fun _ => Stand t s) (Runs.lift fun w h => ?_) fun r => ?_
    · rw [pow_of_nonneg]
      · exact ⟨_, rfl, h⟩
      · rw [one_lit]
        have := mul_nonneg f0 c0.le
        have := mul_nonneg (sub_nonneg.mpr f1) m0.le
        linarith
      · norm_num
    · exact Runs.bind (stand_logNum _ _) fun _ => Runs.bind (stand_logNum _ _) fun _ => Runs.bind (stand_logNum _ _) fun _ =>
        Runs.bind (stand_logNum _ _) fun _ => Runs.pure _ fun _ h => h

theorem runs_heat (hg : Sensible g t x0) (hd : 0 < t.depth) (hs : Fit g t x0 s) (hm : Moves g t s) (width : ℝ) :
    Runs (Stand t s) (heatBudget g.models width t.depth) fun _ => Stand t s := by
  have loop : ∀ (l : List (Flux ℝ)) (acc : ℝ), (∀ f ∈ l, f ∈ g.models.fluxes) →
      Runs (Stand t s) (heatBudgetLoop g.models width t.depth l acc) fun _ => Stand t s := by
    intro l
    induction l with
    | nil => exact fun acc _ => Runs.pure _ fun _ h => h
    | cons f l ih =>
      intro acc hl
      have hf := runs_flux hg hd hs hm width f (hl f (by simp))
      unfold heatBudgetLoop
      exact Runs.bind hf fun q => Runs.bind hf fun q2 => Runs.bind (stand_logNum _ _) fun _ => ih _ fun f' h => hl f' (by simp [h])
  unfold heatBudget
  exact Runs.bind (loop _ _ fun _ h => h) fun tot => Runs.bind (stand_logNum _ _) fun _ => Runs.pure _ fun _ h => h

/-- The log of a step. -/
theorem runs_stepLog (hg : Sensible g t x0) (hd : 0 < t.depth) (hs : Fit g t x0 s) (hm : Moves g t s) (d : StepData ℝ) :
    Runs (Stand t s) (stepLog g d) fun _ => Stand t s := by
  have vis : ∀ w0 : World ℝ, Stand t s w0 → Runs (Stand t s) (PyM.lift (g.models.lava.bulkViscosity w0.st)) fun _ => Stand t s := by
    intro w0 ⟨_, y, hy⟩
    obtain ⟨mu, hmu, _⟩ := viscosity_total hg (hs.withStrain y)
    refine Runs.lift fun w h => ⟨mu, ?_, h⟩
    rw [hy]; exact hmu
  unfold stepLog
  dsimp only
  refine Runs.bind (Q := fun w0 w => Stand t s w ∧ Stand t s w0) (Runs.get fun _ h => ⟨h, h⟩) fun w0 => ?_
  intro w ⟨h, h0⟩
  revert w
  show Runs (Stand t s) _ _
  iterate 5 refine Runs.bind (stand_logNum _ _) fun _ => ?_
  refine Runs.bind (vis w0 h0) fun visc => ?_
  iterate 3 refine Runs.bind (stand_logNum _ _) fun _ => ?_
  refine Runs.bind (Q := fun _ => Stand t s) ((runs_crust hg hs).weaken (fun _ h => h) fun _ _ h => h.1) fun tc => ?_
  refine Runs.bind (stand_logNum _ _) fun _ => ?_
  refine Runs.bind (Q := fun _ => Stand t s) ((runs_cover hg hm).weaken (fun _ h => h) fun _ _ h => h.1) fun f => ?_
  iterate 6 refine Runs.bind (stand_logNum _ _) fun _ => ?_
  refine Runs.bind (Q := fun w0 w => Stand t s w ∧ Stand t s w0) (Runs.get fun _ h => ⟨h, h⟩) fun w1 => ?_
  intro w ⟨h, h1⟩
  revert w
  show Runs (Stand t s) _ _
  refine Runs.bind (stand_log _ _) fun _ => ?_
  refine Runs.bind (stand_logNum _ _) fun _ => ?_
  obtain ⟨ht, y, hy⟩ := h1
  refine Runs.bind (Q := fun _ => Stand t s) (Runs.lift fun w h => ?_) fun q => ?_
  · obtain ⟨q, hq, _⟩ := yield_total (g := g) (s := w1.st) (by rw [hy]; exact hs.crystals)
    exact ⟨q, hq, h⟩
  refine Runs.bind (stand_logNum _ _) fun _ => ?_
  refine Runs.bind (Q := fun _ => Stand t s) (Runs.lift fun w h => ?_) fun q => stand_logNum _ _
  obtain ⟨b, hb, _⟩ := stress_total hg (s := w1.st) (by rw [hy]; exact hs.downstream) hd
  rw [ht]
  exact ⟨b, hb, h⟩

end PyFlowGo
