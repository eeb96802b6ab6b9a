import Verif.Props.Columns
/-
  C72: the spectral radiance column.
-/
set_option linter.unusedSectionVars false
namespace PyFlowGo
open Spec

theorem planck_const : (0 : ℝ) < 2 * Real.pi * 6.6256e-34 * 2.9979e8 ^ 2 / 0.8675e-6 ^ 5 := by
  have := Real.pi_pos
  positivity

theorem planck_exponent (T : ℝ) (hT : 0 < T) : (0 : ℝ) < 6.6256e-34 * 2.9979e8 / 1.38e-23 / (0.8675e-6 * T) := by
  positivity

/-- **C72**. Planck's law as coded is positive for every positive temperature. -/
theorem C72_planck_pos (T : ℝ) (hT : 0 < T) : 0 < planckLaw T := by
  unfold planckLaw
  refine div_pos planck_const ?_
  have := Real.add_one_lt_exp (planck_exponent T hT).ne'
  linarith [planck_exponent T hT]

/-- **C72**. ... and strictly increasing. -/
theorem C72_planck_increasing (T T' : ℝ) (hT : 0 < T) (h : T < T') : planckLaw T < planckLaw T' := by
  have hT' : 0 < T' := hT.trans h
  unfold planckLaw
  refine div_lt_div_of_pos_left planck_const ?_ ?_
  · have := Real.add_one_lt_exp (planck_exponent T' hT').ne'
    linarith [planck_exponent T' hT']
  · refine sub_lt_sub_right (Real.exp_lt_exp.mpr ?_) 1
    refine div_lt_div_of_pos_left (by norm_num) (by positivity) ?_
    exact mul_lt_mul_of_pos_left h (by norm_num)

theorem planck_le {T T' : ℝ} (hT : 0 < T) (h : T ≤ T') : planckLaw T ≤ planckLaw T' := by
  rcases h.lt_or_eq with h | rfl
  · exact (C72_planck_increasing T T' hT h).le
  · exact le_rfl

/-- The shares of the pixel: molten lava, crust, background. -/
theorem C72_shares (L f width : ℝ) (hL : 0 < L) :
    (1 - f) * width / L + f * width / L + (1 - width / L) = 1 ∧ (1 - width / L < 0 ↔ L < width) := by
  constructor
  · ring
  · rw [sub_neg, lt_div_iff₀ hL, one_mul]

/-- **C72**. The radiance is positive as soon as both surfaces are at least as warm as the snow around and emit at
    least as well, even when the channel is wider than the pixel. -/
theorem C72_radiance_pos (L f Tc Tm em ec width : ℝ) (hL : 0 < L) (h0 : 0 ≤ f) (h1 : f ≤ 1) (hw : 0 ≤ width)
    (hc : 258 ≤ Tc) (hm : 258 ≤ Tm) (hem : 0.1 ≤ em) (hec : 0.1 ≤ ec) : 0 < pixelRadiance L f Tc Tm em ec width := by
  unfold pixelRadiance
  have hB := C72_planck_pos 258 (by norm_num)
  have hBc := planck_le (by norm_num) hc
  have hBm := planck_le (by norm_num) hm
  have hr : 0 ≤ width / L := by positivity
  have ea : (1 - f) * width / L = (1 - f) * (width / L) := by ring
  have eb : f * width / L = f * (width / L) := by ring
  rw [ea, eb]
  have a1 : 0.1 * planckLaw 258 ≤ em * planckLaw Tm := mul_le_mul hem hBm hB.le (by linarith)
  have a2 : 0.1 * planckLaw 258 ≤ ec * planckLaw Tc := mul_le_mul hec hBc hB.le (by linarith)
  have b1 : (1 - f) * (width / L) * (0.1 * planckLaw 258) ≤ (1 - f) * (width / L) * (em * planckLaw Tm) :=
    mul_le_mul_of_nonneg_left a1 (mul_nonneg (by linarith) hr)
  have b2 : f * (width / L) * (0.1 * planckLaw 258) ≤ f * (width / L) * (ec * planckLaw Tc) :=
    mul_le_mul_of_nonneg_left a2 (mul_nonneg h0 hr)
  refine mul_pos (by norm_num) ?_
  nlinarith

/-- **C72**. Otherwise it need not be: a channel wider than the pixel that emits less than the snow gives a negative
    radiance. -/
theorem C72_negative_radiance (L f Tc Tm width : ℝ) (hL : 0 < L) (hw : L < width) :
    pixelRadiance L f Tc Tm 0 0 width < 0 := by
  unfold pixelRadiance
  have hB := C72_planck_pos 258 (by norm_num)
  have : 1 - width / L < 0 := (C72_shares L f width hL).2.mpr hw
  refine mul_neg_of_pos_of_neg (by norm_num) ?_
  have : (1 - width / L) * 0.1 * planckLaw 258 < 0 := mul_neg_of_neg_of_pos (by linarith) hB
  simpa using this

/-- **C72**. Hotter surfaces are brighter. -/
theorem C72_hotter_is_brighter (L f Tc Tm Tc' Tm' em ec width : ℝ) (hL : 0 < L) (h0 : 0 ≤ f) (h1 : f ≤ 1) (hw : 0 ≤ width)
    (hc : 0 < Tc) (hm : 0 < Tm) (hcc : Tc ≤ Tc') (hmm : Tm ≤ Tm') (hem : 0 ≤ em) (hec : 0 ≤ ec) :
    pixelRadiance L f Tc Tm em ec width ≤ pixelRadiance L f Tc' Tm' em ec width := by
  unfold pixelRadiance
  have a1 := mul_le_mul_of_nonneg_left (planck_le hm hmm)
    (mul_nonneg hem (div_nonneg (mul_nonneg (sub_nonneg.mpr h1) hw) hL.le))
  have a2 := mul_le_mul_of_nonneg_left (planck_le hc hcc) (mul_nonneg hec (div_nonneg (mul_nonneg h0 hw) hL.le))
  refine mul_le_mul_of_nonneg_left ?_ (by norm_num)
  linarith

/-- **C72**. More crust (not hotter and not emitting better than the melt) is darker. -/
theorem C72_crust_is_darker (L f f' Tc Tm em ec width : ℝ) (hL : 0 < L) (hf : f ≤ f') (hw : 0 ≤ width)
    (hc : 0 < Tc) (hcm : Tc ≤ Tm) (hec : 0 ≤ ec) (hee : ec ≤ em) :
    pixelRadiance L f' Tc Tm em ec width ≤ pixelRadiance L f Tc Tm em ec width := by
  unfold pixelRadiance
  have hr : 0 ≤ width / L := by positivity
  have hb : ec * planckLaw Tc ≤ em * planckLaw Tm :=
    mul_le_mul hee (planck_le hc hcm) (C72_planck_pos Tc hc).le (hec.trans hee)
  refine mul_le_mul_of_nonneg_left ?_ (by norm_num)
  have e1 : ∀ f : ℝ, em * ((1 - f) * width / L) * planckLaw Tm + ec * (f * width / L) * planckLaw Tc =
      width / L * (em * planckLaw Tm - f * (em * planckLaw Tm - ec * planckLaw Tc)) := fun f => by ring
  rw [e1, e1]
  have := mul_le_mul_of_nonneg_right hf (sub_nonneg.mpr hb)
  have := mul_le_mul_of_nonneg_left this hr
  linarith

/-- **C72** on the result of a run: with a cover fraction in [0,1], surfaces at 258 K or more and emissivities of 0.1 or
    more (molten, crust), the `spectral_radiance` of every complete row is the pixel radiance and positive. -/
theorem C72_radiance_column (g : Integrator ℝ) (hdx : 0 < g.dx) (hl : StrainIndependent g.models.lava)
    (pre post : List (Flux ℝ)) (fl : Flux ℝ) (hfl : g.models.fluxes = pre ++ fl :: post)
    (hrad : fluxColumn fl = "flowgofluxradiationheat") (hpost : ∀ g ∈ post, fluxColumn g ≠ "flowgofluxradiationheat") (n : Nat)
    (w w' : World ℝ) (hw : w.log = []) (h : runLoop g n w = some (.ok (), w')) :
    ∃ (k : Nat) (s : Nat → FlowState ℝ) (d : Nat → RowData) (E : ℝ), (w'.log.length = k ∨ w'.log.length = k + 1) ∧
      s 0 = w.st ∧ ∀ i, i < k → RowMade g w.terrain w.fluxRate E (s i) (d i) ∧
        EulerStep g w.terrain E (s i) (s (i + 1)) (d i) ∧ ∃ r, loggedNum w'.log (s i).pos "spectral_radiance" = some r ∧
          r = pixelRadiance (radianceSetup (d i).crustT (coreTemperature g.models.lava (s i)) fl).1
            (coverLaw g.models.cover (s i).pos (d i).v) (d i).crustT (coreTemperature g.models.lava (s i))
            (radianceSetup (d i).crustT (coreTemperature g.models.lava (s i)) fl).2.1
            (radianceSetup (d i).crustT (coreTemperature g.models.lava (s i)) fl).2.2 (d i).width ∧
          (0 ≤ coverLaw g.models.cover (s i).pos (d i).v → coverLaw g.models.cover (s i).pos (d i).v ≤ 1 →
            0 ≤ (d i).width → 258 ≤ (d i).crustT → 258 ≤ coreTemperature g.models.lava (s i) →
            0.1 ≤ (radianceSetup (d i).crustT (coreTemperature g.models.lava (s i)) fl).2.1 →
            0.1 ≤ (radianceSetup (d i).crustT (coreTemperature g.models.lava (s i)) fl).2.2 → 0 < r) := by
  obtain ⟨k, s, d, E, h1, h2, h3⟩ := C71_flux_columns g hdx hl n w w' hw h
  refine ⟨k, s, d, E, h1, h2, fun i hi => ?_⟩
  obtain ⟨r1, _, r3, qs, hq, _, hcol⟩ := h3 i hi
  refine ⟨r1, r3, _, ?_, rfl, fun a b c e f g' h' => C72_radiance_pos _ _ _ _ _ _ _ ?_ a b c e f g' h'⟩
  · apply loggedNum_of_cell
    rw [hcol _ (by decide), hfl, C71_column_of_a_flux _ _ _ _ _ pre post fl qs (by rw [← hfl]; exact hq.length_eq.symm)]
    · rfl
    · cases fl <;> simp [fluxColumn] at hrad <;> simp [auxColumns]
    · intro a ha
      have := hpost a ha
      cases a <;> simp [fluxColumn, auxColumns] at this ⊢
  · cases fl <;> simp [fluxColumn] at hrad <;> simp [radianceSetup] <;> norm_num

/-- **C72**: the glowing flows of C71 meet the hypotheses, and the cover, the crust temperature and the emissivities of
    every one of their rows are in the ranges asked for. -/
example (n : Nat) (hn : 1 ≤ n) : ∃ (g : Integrator ℝ) (w w' : World ℝ) (σ : ℝ), 0 < g.dx ∧ w.log = [] ∧
    StrainIndependent g.models.lava ∧ g.models.fluxes = [] ++ .radBasic σ 1 :: [.convection] ∧
    (∀ a ∈ ([.convection] : List (Flux ℝ)), fluxColumn a ≠ "flowgofluxradiationheat") ∧
    runLoop g n w = some (.ok (), w') ∧ n ≤ w'.log.length ∧
    (∀ pos v, coverLaw g.models.cover pos v = 1) ∧ (∀ s, g.models.crust.temperature s = .ok 500) ∧
    ∀ Tc Tm, (radianceSetup Tc Tm (.radBasic σ 1)).2 = (1, 1) := by
  obtain ⟨σ, w, w', h1, h2, h3⟩ := glow_run n hn
  refine ⟨_, w, w', σ, by show (0:ℝ) < 1; norm_num, h1, fun _ _ => rfl, rfl, by simp [fluxColumn], h2, h3, ?_, fun _ => rfl,
    fun _ _ => rfl⟩
  intro pos v
  show coverLaw (.basic 0 1) pos v = 1
  simp [coverLaw]

end PyFlowGo
