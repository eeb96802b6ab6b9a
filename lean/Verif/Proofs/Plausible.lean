import Verif.Spec.Plausible
import Verif.Proofs.RunTable
import Verif.Proofs.TotalSearch
import Verif.Props.StepCases
/-
  C119: the rows of a run with sensible parameters.
-/
set_option linter.unusedSectionVars false
namespace PyFlowGo
open Spec

variable {g : Integrator ℝ} {x0 : ℝ}

/-- The state with a positive strain rate. -/
def Strained (T : Terrain ℝ) (s : FlowState ℝ) (w : World ℝ) : Prop := w.terrain = T ∧ ∃ y, 0 < y ∧ w.st = { s with strain := y }

theorem velocity_rate {l : Lava ℝ} {T : Terrain ℝ} {s : FlowState ℝ} {v x : ℝ} (h : l.meanVelocity T s = .ok (v, x)) : x = 3 * v / T.depth := by
  obtain ⟨t0, tb, mu, _, _, _, _, _, _, _, hx⟩ := (meanVelocity_ok_iff _ _ _ _ _).mp h
  exact hx

theorem strained_velocity {T : Terrain ℝ} {s : FlowState ℝ} (hd : 0 < T.depth) (hm : Moves g T s) :
    Preserves (Strained T s) (meanVelocityM g.models.lava) := by
  rintro w r w' ⟨h1, y, hy, h2⟩ e
  obtain ⟨v, x, hv, h0⟩ := hm y
  have hx := velocity_rate hv
  unfold meanVelocityM at e
  rw [h1, h2, hv] at e
  simp only [Prod.mk.injEq] at e
  rw [← e.2]
  exact ⟨rfl, x, by rw [hx]; positivity, rfl⟩

theorem moves_of {T : Terrain ℝ} (hg : Sensible g T x0) (hd : 0 < T.depth) {s : FlowState ℝ} (hs : Fit g T x0 s) {y v x : ℝ}
    (hv : g.models.lava.meanVelocity T { s with strain := y } = .ok (v, x)) (h0 : 0 < v) : Moves g T s := by
  obtain ⟨k, hk⟩ := velocity_total hg hd hs
  have hk0 : 0 < k := by
    obtain ⟨v', x', c, h1, h2, h3⟩ := hk y
    rw [hv, Except.ok.injEq, Prod.mk.injEq] at h1
    rw [h1.1, h3] at h0
    exact (pos_iff_pos_of_mul_pos h0).mp h2
  intro z
  obtain ⟨v', x', c, h1, h2, h3⟩ := hk z
  exact ⟨v', x', h1, by rw [h3]; exact mul_pos h2 hk0⟩

/-- The strain rate in the row of an accepted step. -/
theorem accepted_strain {w w' : World ℝ} (h : AcceptedStep g w w') (hd : 0 < w.terrain.depth) (hm : Moves g w.terrain w.st) :
    ∃ y, 0 < y ∧ loggedNum w'.log w.st.pos "strain_rate" = some y := by
  obtain ⟨A⟩ := acceptedFacts h
  have hx := velocity_rate A.hv
  have hvpos := A.vpos
  have hS : Strained w.terrain w.st A.w1 :=
    Preserves.heatBudget (P := Strained w.terrain w.st) (fun _ _ h => h) g.models (strained_velocity hd hm) _ _ _ _ _
      (by exact ⟨rfl, A.x, by rw [hx]; positivity, rfl⟩) A.facts.heat
  obtain ⟨_, y, hy, hst⟩ := hS
  have hsy : A.w1.st.strain = y := by rw [hst]
  exact ⟨y, hy, loggedNum_of_cell (A.logged (by decide) (by rw [← hsy]; rfl))⟩

/-- Every state from which a step was accepted is fit. -/
theorem rows_fit {w w' : World ℝ} {E : ℝ} {k : Nat} {ws : Nat → World ℝ} {d : Nat → RowData} (hg : Sensible g w.terrain x0)
    (hs : Fit g w.terrain x0 w.st) (hr : Ready g w) (t : RunTable g w w' E k ws d) :
    ∀ i, i < k → Fit g w.terrain x0 (ws i).st ∧ Ready g (ws i) := by
  intro i
  induction i with
  | zero => intro _; rw [t.start]; exact ⟨hs, hr⟩
  | succ i ih =>
    intro hi
    obtain ⟨h1, h2⟩ := ih (by omega)
    have ht := t.terrain i (by omega)
    obtain ⟨a1, a2, _⟩ := t.accepted i (by omega)
    obtain ⟨b1, b2, _⟩ := t.accepted (i + 1) hi
    obtain ⟨ht', hc⟩ := step_fit (x0 := x0) (by rw [ht]; exact hg) (by rw [ht]; exact h1) h2 a1 a2
    rcases hc with hc | ⟨hpk, hdown, hcr, hhot, hroom⟩ | ⟨hc, hc'⟩
    · rw [b1] at hc; cases hc
    · obtain ⟨e, he⟩ := packed_step (packed_viscosity hg _ hdown hcr hhot hroom hpk)
      rw [b2] at he; cases he
    · rw [ht', ht] at hc
      exact ⟨hc, hc'⟩

theorem temp_falls {k : Nat} {f : Nat → ℝ} (hT : ∀ i, i < k → f (i + 1) < f i) : ∀ i, i ≤ k → f i ≤ f 0 ∧ (0 < i → f i < f 0) := by
  intro i
  induction i with
  | zero => intro _; exact ⟨le_rfl, fun h => absurd h (lt_irrefl _)⟩
  | succ i ih =>
    intro hi
    have h1 := (ih (by omega)).1
    have h2 := hT i (by omega)
    exact ⟨by linarith, fun _ => by linarith⟩

/-- Every row of a finished loop. -/
theorem plausible_rows {w w' : World ℝ} {E : ℝ} {k : Nat} {ws : Nat → World ℝ} {d : Nat → RowData} (hg : Sensible g w.terrain x0)
    (hs : Fit g w.terrain x0 w.st) (hr : Ready g w) (hfl : g.massConservation = true → ∃ fr, w.fluxRate = some fr ∧ 0 < fr)
    (hE : 0 < k → 0 < E) (t : RunTable g w w' E k ws d) (i : Nat) (hi : i < k) :
    PlausibleRow g w.terrain.depth w.st w'.log (ws i).st.pos := by
  have hE := hE (by omega)
  have hfit := fun i hi => (rows_fit hg hs hr t i hi).1
  have hpos : ∀ i, i < k → x0 ≤ (ws i).st.pos := fun i hi => (hfit i hi).downstream
  have hden : ∀ i, i < k → 0 < E * g.models.lava.density (ws i).st * g.models.lava.latentHeat := fun i hi =>
    mul_pos (mul_pos hE (density_pos hg (hpos i hi))) hg.latent
  have hrate : ∀ i, i < k → 0 < (d i).rate := fun i hi => by
    obtain ⟨r, h1, h2⟩ := hg.rate _ (hpos i hi) (hfit i hi).hot
    have := (t.made i hi).rate
    rw [h2, Except.ok.injEq] at this
    rw [← this]; exact h1
  have hgrow : ∀ i, i < k → 0 < crystalGradient g E (ws i).st (d i) := fun i hi => by
    have h1 := C07_crystals_increase g _ _ (t.accepted i hi)
    rw [(t.step i hi).crystal] at h1
    have : 0 < crystalGradient g E (ws i).st (d i) * g.dx := by linarith
    exact (pos_iff_pos_of_mul_pos this).mpr hg.step
  have hheat : ∀ i, i < k → 0 < (d i).heat := fun i hi => by
    have h1 := hgrow i hi
    unfold crystalGradient at h1
    rw [lt_div_iff₀ (hden i hi), zero_mul] at h1
    exact h1
  have hcool : ∀ i, i < k → tempGradient g E (ws i).st (d i) < 0 := fun i hi => by
    unfold tempGradient
    rw [neg_div]
    exact neg_lt_zero.mpr (div_pos (hheat i hi) (mul_pos (hden i hi) (hrate i hi)))
  have hT := temp_falls (f := fun i => (ws i).st.temp) (k := k) (fun i hi => by
    rw [(t.step i hi).temp]
    have := mul_neg_of_neg_of_pos (hcool i hi) hg.step
    linarith) i hi.le
  have hφ := temp_falls (f := fun i => -(ws i).st.crystal) (k := k) (fun i hi => by
    have := C07_crystals_increase g _ _ (t.accepted i hi)
    linarith) i hi.le
  rw [t.start] at hT hφ
  have hp := t.pos i hi.le
  have hvent : w.st.pos < (ws i).st.pos → 0 < i := by
    intro h
    rcases Nat.eq_zero_or_pos i with rfl | h'
    · rw [t.start] at h; exact absurd h (lt_irrefl _)
    · exact h'
  have fit := hfit i hi
  have made := t.made i hi
  have row := t.row i hi
  have acc := t.accepted i hi
  have hter := t.terrain i hi.le
  have hv0 := made.moving
  have hmv : Moves g w.terrain (ws i).st := by
    obtain ⟨x, hx⟩ := made.velocity
    exact moves_of hg hr.depth fit (y := (ws i).st.strain) hx hv0
  obtain ⟨y, hy0, hy⟩ := accepted_strain acc (by rw [hter]; exact hr.depth) (by rw [hter]; exact hmv)
  have hstrain : (d i).strain = y := by
    have h1 := row.strain_rate
    unfold loggedNum at h1 hy
    rw [t.kept i hi] at h1
    rw [h1, Option.some.injEq] at hy
    exact hy
  have hves := hg.vesicles (ws i).st (hpos i hi)
  obtain ⟨mu, hmu, hmu0⟩ := viscosity_total hg (fit.withStrain (d i).strain)
  rw [made.viscosity, Except.ok.injEq] at hmu
  obtain ⟨tc, hc1, hc2, hc3⟩ := hg.crust (ws i).st (hpos i hi) fit.hot
  rw [made.crust, Except.ok.injEq] at hc3
  obtain ⟨vc, xc, hvc, hvc0⟩ := hmv (d i).strain
  obtain ⟨xc', hvc'⟩ := made.cover
  rw [hvc', Except.ok.injEq, Prod.mk.injEq] at hvc
  obtain ⟨q, hq, hq0⟩ := yield_total (g := g) fit.crystals
  rw [made.yieldStrength, Except.ok.injEq] at hq
  obtain ⟨b, hb, hb0⟩ := stress_total hg (hpos i hi) hr.depth
  rw [made.basalStress, Except.ok.injEq] at hb
  refine ⟨⟨_, row.position, rfl, ?_⟩, ⟨_, row.channel_width, ?_⟩, ⟨_, row.channel_depth, hr.depth, rfl⟩,
    ⟨_, row.crystal_fraction, fit.crystals, ?_, fun h => ?_⟩, ⟨_, row.core_temperature, fit.hot, hT.1, fun h => hT.2 (hvent h)⟩,
    ⟨_, row.strain_rate, by rw [hstrain]; exact hy0⟩, ⟨_, row.vesicle_fraction, hves⟩, ⟨_, row.viscosity, by rw [hmu]; exact hmu0⟩,
    ⟨_, row.density, density_pos hg (hpos i hi), ?_⟩, ⟨_, row.mean_velocity, hv0⟩, ⟨_, row.crust_temperature, by rw [hc3]; exact ⟨hc1, hc2⟩⟩,
    ⟨_, row.effective_cover_fraction, ?_⟩, ⟨_, row.dphi_dx, hgrow i hi⟩, ⟨_, row.dtemp_dx, hcool i hi⟩, ⟨_, row.dphi_dtemp, hrate i hi⟩,
    ⟨_, row.dtemp_dt, ?_⟩, ⟨_, row.heat_budget, hheat i hi⟩, ⟨_, row.slope, fit.ground _ made.slope⟩, ⟨_, row.effusion_rate, hE⟩,
    ⟨_, row.tho_0, _, row.tho_b, by rw [hq]; exact hq0, by rw [hb]; exact hb0 fit.ground, fun h => ?_⟩⟩
  · rw [hp]
    have := mul_nonneg (Nat.cast_nonneg (α := ℝ) i) hg.step.le
    linarith
  · cases hm : g.massConservation with
    | false =>
      rw [made.volume hm]
      exact div_pos hE (mul_pos hv0 hr.depth)
    | true =>
      obtain ⟨fr, h1, h2⟩ := made.mass hm
      obtain ⟨fr', h3, h4⟩ := hfl hm
      rw [h1, Option.some.injEq] at h3
      rw [h2, h3]
      exact div_pos (div_pos h4 (mul_pos hv0 hr.depth)) (density_pos hg (hpos i hi))
  · linarith [hφ.1]
  · linarith [hφ.2 (hvent h)]
  · unfold Lava.density Lava.vesicleFraction
    rw [one_lit]
    nlinarith [hg.density, hves.1]
  · rw [← cover_value]
    exact cover_fraction _ hg.cover _ _ (by rw [hvc.1]; exact hvc0.le)
  · have := mul_pos (neg_pos.mpr (hcool i hi)) hv0
    linarith
  · obtain ⟨j, rfl⟩ : ∃ j, i = j + 1 := ⟨i - 1, by have := hvent h; omega⟩
    obtain ⟨A⟩ := acceptedFacts (t.accepted j (by omega))
    have hstop := A.hstop
    have e : A.s' = (ws (j + 1)).st := (congrArg World.st A.hw).symm
    have hfin : (ws (j + 1)).finished = false := acc.1
    have hst : A.stop = false := by
      have := congrArg World.finished A.hw
      rw [hfin] at this
      cases hstop : A.stop with
      | false => rfl
      | true => rw [hstop] at this; simp at this
    rw [hst, t.terrain j (by omega), e] at hstop
    have hy := (stopTest_false hstop).2.2.1
    unfold Lava.yieldNotCompatible at hy
    rw [made.yieldStrength, ok_bind, made.basalStress, ok_bind] at hy
    have hy := Except.ok.inj hy
    rw [← Bool.not_eq_true, leB_real, not_le] at hy
    exact hy

end PyFlowGo
